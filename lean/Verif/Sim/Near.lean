import Verif.Sim.Tame

/-!
# Solvers that make errors

`ExactBatches` asks of the solver that every batch ends where a solution of the differential equation ends.
Here this is weakened: the path the solver follows may miss the slope prescribed by the right-hand side by
`η` at any time, and the state handed back may miss the end of the path by `ε`. The errors of all batches
together stay within a constant times `η + ε`, provided the right-hand side is Lipschitz around the
non-negative states.
-/

namespace PyBox

open Set Filter Topology Spec

namespace Spec

/-- A path whose slope is within `η` of the one prescribed, at all but finitely many times. -/
def NearlySolvesOn {E : Type*} [NormedAddCommGroup E] [NormedSpace ℝ E] (F : ℝ → E → E) (η : ℝ)
    (v : ℝ → E) (a b : ℝ) : Prop :=
  ContinuousOn v (Icc a b) ∧ ∃ S : Set ℝ, S.Finite ∧ ∀ t ∈ Ico a b, t ∉ S →
    ∃ v', HasDerivWithinAt v v' (Ici t) t ∧ dist v' (F t (v t)) ≤ η

/-- The batches of a solver that makes errors: each starts where the one before ended, follows the
differential equation up to `η`, and hands back the end up to `ε`. -/
def NearBatches {E : Type*} [NormedAddCommGroup E] [NormedSpace ℝ E] (F : ℝ → E → E) (η ε : ℝ)
    (solve : E → ℚ → E) (batch : ℚ) (y0 : E) (n : ℕ) : Prop :=
  ∀ k < n, ∃ v : ℝ → E, v 0 = afterBatches solve batch y0 k ∧ NearlySolvesOn F η v 0 batch ∧
    dist (afterBatches solve batch y0 (k + 1)) (v batch) ≤ ε

end Spec

/-- An exact solver is one whose errors are 0. -/
theorem Spec.ExactBatches.near {E : Type*} [NormedAddCommGroup E] [NormedSpace ℝ E] {F : ℝ → E → E}
    {solve : E → ℚ → E} {batch : ℚ} {y0 : E} {n : ℕ} (h : ExactBatches F solve batch y0 n) {η ε : ℝ}
    (hη : 0 ≤ η) (hε : 0 ≤ ε) : NearBatches F η ε solve batch y0 n := by
  intro k hk
  obtain ⟨u, h1, ⟨h2, S, hS, h3⟩, h4⟩ := h k hk
  refine ⟨u, h1, ⟨h2, S, hS, fun t ht htS => ⟨_, h3 t ht htS, by rw [dist_self]; exact hη⟩⟩, ?_⟩
  rw [← h4, dist_self]
  exact hε

/-- Exponential growth at most, in spite of finitely many exceptional times. -/
theorem growth_off_finite {E : Type*} [NormedAddCommGroup E] [NormedSpace ℝ E] {S : Set ℝ} (hS : S.Finite)
    {f f' : ℝ → E} {K c : ℝ} (hK : 0 < K) :
    ∀ {a b : ℝ}, a ≤ b → ContinuousOn f (Icc a b) →
      (∀ t ∈ Ico a b, t ∉ S → HasDerivWithinAt f (f' t) (Ici t) t ∧ ‖f' t‖ ≤ K * (‖f t‖ + c)) →
      ‖f b‖ + c ≤ (‖f a‖ + c) * Real.exp (K * (b - a)) := by
  induction S, hS using Set.Finite.induction_on with
  | empty =>
    intro a b hab hf hd
    have h := norm_le_gronwallBound_of_norm_deriv_right_le (K := K) (ε := K * c) hf
      (fun t ht => (hd t ht (notMem_empty t)).1) le_rfl
      (fun t ht => ((hd t ht (notMem_empty t)).2).trans (le_of_eq (by ring))) b ⟨hab, le_rfl⟩
    rw [gronwallBound_of_K_ne_0 hK.ne', mul_div_cancel_left₀ _ hK.ne'] at h
    linarith
  | @insert s S hs _ ih =>
    intro a b hab hf hd
    by_cases hmem : s ∈ Ico a b
    · have h1 : ‖f s‖ + c ≤ (‖f a‖ + c) * Real.exp (K * (s - a)) :=
        ih hmem.1 (hf.mono (Icc_subset_Icc le_rfl hmem.2.le)) fun t ht htS =>
          hd t ⟨ht.1, ht.2.trans hmem.2⟩ (by rw [mem_insert_iff, not_or]; exact ⟨ht.2.ne, htS⟩)
      have h2 : ∀ x ∈ Ioc s b, ‖f b‖ + c ≤ (‖f x‖ + c) * Real.exp (K * (b - x)) := fun x hx =>
        ih hx.2 (hf.mono (Icc_subset_Icc (hmem.1.trans hx.1.le) le_rfl)) fun t ht htS =>
          hd t ⟨hmem.1.trans (hx.1.le.trans ht.1), ht.2⟩
            (by rw [mem_insert_iff, not_or]; exact ⟨(hx.1.trans_le ht.1).ne', htS⟩)
      have hmem' := Ioc_mem_nhdsGT hmem.2
      have hlim : Tendsto (fun x => (‖f x‖ + c) * Real.exp (K * (b - x))) (𝓝[>] s)
          (𝓝 ((‖f s‖ + c) * Real.exp (K * (b - s)))) := by
        have hfs := (hf s (Ico_subset_Icc_self hmem)).mono_left
          (nhdsWithin_le_of_mem (mem_of_superset hmem' fun x hx => ⟨hmem.1.trans hx.1.le, hx.2⟩))
        refine (hfs.norm.add tendsto_const_nhds).mul ?_
        have : Continuous fun x : ℝ => Real.exp (K * (b - x)) := by fun_prop
        exact this.continuousAt.continuousWithinAt
      have h3 := ge_of_tendsto hlim (mem_of_superset hmem' h2)
      refine h3.trans ((mul_le_mul_of_nonneg_right h1 (Real.exp_pos _).le).trans (le_of_eq ?_))
      rw [mul_assoc, ← Real.exp_add]
      congr 2
      ring
    · exact ih hab hf fun t ht htS => hd t ht (by
        rw [mem_insert_iff, not_or]
        exact ⟨fun he => hmem (he ▸ ht), htS⟩)

section

variable {ι : Type} [Fintype ι]

/-- Around every non-negative state, bounded and Lipschitz for all times up to any bound. -/
def AroundLip (F : ℝ → (ι → ℝ) → ι → ℝ) : Prop :=
  ∀ (T : ℝ) (y : ι → ℝ), (∀ i, 0 ≤ y i) → ∀ i, ∃ ε > 0, SetLip (Icc 0 T) (Metric.ball y ε) (fun s z => F s z i)

variable {F : ℝ → (ι → ℝ) → ι → ℝ}

omit [Fintype ι] in
theorem SetLip.mono [Fintype ι] {A : Set ℝ} {B B' : Set (ι → ℝ)} {f : ℝ → (ι → ℝ) → ℝ} (h : SetLip A B f)
    (hB : B' ⊆ B) : SetLip A B' f := by
  obtain ⟨K, M, hK, hM, hh⟩ := h
  exact ⟨K, M, hK, hM, fun s hs z hz => ⟨(hh s hs z (hB hz)).1, fun z' hz' => (hh s hs z (hB hz)).2 z' (hB hz')⟩⟩

theorem AroundLip.ball (hF : AroundLip F) (T : ℝ) {y : ι → ℝ} (hy : ∀ i, 0 ≤ y i) :
    ∃ ε > 0, ∃ K : NNReal, ∀ s ∈ Icc 0 T, LipschitzOnWith K (F s) (Metric.ball y ε) := by
  classical
  choose ε hε h using hF T y hy
  obtain ⟨δ, hδ, hδε⟩ : ∃ δ > 0, ∀ i, δ ≤ ε i := by
    by_cases hne : Nonempty ι
    · refine ⟨Finset.univ.inf' Finset.univ_nonempty ε, ?_, fun i => Finset.inf'_le _ (Finset.mem_univ i)⟩
      rw [gt_iff_lt, Finset.lt_inf'_iff]
      exact fun i _ => hε i
    · exact ⟨1, one_pos, fun i => absurd ⟨i⟩ hne⟩
  obtain ⟨K, _, hK⟩ := SetLip.components (A := Icc 0 T) (B := Metric.ball y δ)
    fun i => (h i).mono (Metric.ball_subset_ball (hδε i))
  exact ⟨δ, hδ, K, fun s hs => (hK s hs).1⟩

/-- A tube around a non-negative path in which the right-hand side is Lipschitz. -/
theorem AroundLip.tube (hF : AroundLip F) {T : ℝ} {u : ℝ → ι → ℝ} (hu : ContinuousOn u (Icc 0 T))
    (hnn : ∀ t ∈ Icc 0 T, ∀ i, 0 ≤ u t i) :
    ∃ r > 0, ∃ K : ℝ, 1 ≤ K ∧ ∀ s ∈ Icc 0 T, ∀ t ∈ Icc 0 T, ∀ z, dist z (u t) < r →
      dist (F s z) (F s (u t)) ≤ K * dist z (u t) := by
  have key : ∃ r > 0, ∃ K : ℝ, 1 ≤ K ∧ ∀ s ∈ Icc 0 T, ∀ y ∈ u '' Icc 0 T, ∀ z, dist z y < r →
      dist (F s z) (F s y) ≤ K * dist z y := by
    refine (isCompact_Icc.image_of_continuousOn hu).induction_on (p := fun A => ∃ r > 0, ∃ K : ℝ, 1 ≤ K ∧
      ∀ s ∈ Icc 0 T, ∀ y ∈ A, ∀ z, dist z y < r → dist (F s z) (F s y) ≤ K * dist z y) ?_ ?_ ?_ ?_
    · exact ⟨1, one_pos, 1, le_rfl, fun _ _ y hy => absurd hy (notMem_empty y)⟩
    · rintro A B hAB ⟨r, hr, K, hK, h⟩
      exact ⟨r, hr, K, hK, fun s hs y hy => h s hs y (hAB hy)⟩
    · rintro A B ⟨r, hr, K, hK, h⟩ ⟨r', hr', K', hK', h'⟩
      refine ⟨min r r', lt_min hr hr', max K K', hK.trans (le_max_left _ _), fun s hs y hy z hz => ?_⟩
      rcases hy with hy | hy
      · exact (h s hs y hy z (hz.trans_le (min_le_left _ _))).trans
          (mul_le_mul_of_nonneg_right (le_max_left _ _) dist_nonneg)
      · exact (h' s hs y hy z (hz.trans_le (min_le_right _ _))).trans
          (mul_le_mul_of_nonneg_right (le_max_right _ _) dist_nonneg)
    · rintro p ⟨t, ht, rfl⟩
      obtain ⟨ε, hε, K, hK⟩ := hF.ball T (hnn t ht)
      refine ⟨Metric.ball (u t) (ε / 2), mem_nhdsWithin_of_mem_nhds (Metric.ball_mem_nhds _ (by linarith)),
        ε / 2, by linarith, max K 1, le_max_right _ _, fun s hs y hy z hz => ?_⟩
      have hy' : y ∈ Metric.ball (u t) ε := Metric.ball_subset_ball (by linarith) hy
      have hz' : z ∈ Metric.ball (u t) ε := by
        have h1 := dist_triangle z y (u t)
        have h2 := Metric.mem_ball.1 hy
        rw [Metric.mem_ball]
        linarith
      exact ((hK s hs).dist_le_mul z hz' y hy').trans
        (mul_le_mul_of_nonneg_right (le_max_left _ _) dist_nonneg)
  obtain ⟨r, hr, K, hK, h⟩ := key
  exact ⟨r, hr, K, hK, fun s hs t ht z hz => h s hs _ ⟨t, ht, rfl⟩ z hz⟩

/-- A path that starts near a non-negative solution and nearly solves the equation stays near. -/
theorem AroundLip.stays_near (hF : AroundLip F) {T : ℝ} (hT : 0 ≤ T) {u : ℝ → ι → ℝ} (hu : SolvesOn F u 0 T)
    (hnn : ∀ t ∈ Icc 0 T, ∀ i, 0 ≤ u t i) :
    ∃ r > 0, ∃ C : ℝ, 1 ≤ C ∧ ∀ (d η : ℝ) (v : ℝ → ι → ℝ), 0 ≤ η → d + η ≤ r → dist (v 0) (u 0) ≤ d →
      NearlySolvesOn F η v 0 T → ∀ t ∈ Icc 0 T, dist (v t) (u t) ≤ C * (d + η) := by
  obtain ⟨r, hr, K, hK, hlip⟩ := hF.tube hu.1 hnn
  obtain ⟨hucont, S, hS, hud⟩ := hu
  have hK0 : 0 < K := by linarith
  have hC1 : 1 ≤ Real.exp (K * T) := Real.one_le_exp (by positivity)
  have hC0 : 0 < Real.exp (K * T) := Real.exp_pos _
  refine ⟨r / 2 / Real.exp (K * T), by positivity, Real.exp (K * T), hC1, ?_⟩
  intro d η v hη hsmall hstart ⟨hvcont, S', hS', hvd⟩
  have hd0 : 0 ≤ d := dist_nonneg.trans hstart
  have hsm : Real.exp (K * T) * (d + η) < r := by
    have : Real.exp (K * T) * (d + η) ≤ Real.exp (K * T) * (r / 2 / Real.exp (K * T)) :=
      mul_le_mul_of_nonneg_left hsmall hC0.le
    rw [mul_div_cancel₀ _ hC0.ne'] at this
    linarith
  have hsub : ContinuousOn (fun t => v t - u t) (Icc 0 T) := hvcont.sub hucont
  -- as long as the path has not left the tube, the bound holds
  have step : ∀ t ∈ Icc 0 T, (∀ s ∈ Ico 0 t, dist (v s) (u s) < r) → dist (v t) (u t) ≤ Real.exp (K * T) * (d + η) := by
    intro t ht hin
    choose! v' hv' using hvd
    have h := growth_off_finite (hS.union hS') (f := fun t => v t - u t)
      (f' := fun t => v' t - F t (u t)) (c := η) hK0 ht.1 (hsub.mono (Icc_subset_Icc le_rfl ht.2))
      (fun s hs hsS => by
        have hs' : s ∈ Ico 0 T := ⟨hs.1, hs.2.trans_le ht.2⟩
        have hs'' : s ∈ Icc 0 T := Ico_subset_Icc_self hs'
        obtain ⟨a1, a2⟩ := hv' s hs' fun h => hsS (Or.inr h)
        refine ⟨a1.sub (hud s hs' fun h => hsS (Or.inl h)), ?_⟩
        rw [← dist_eq_norm, ← dist_eq_norm]
        have a3 := hlip s hs'' s hs'' (v s) (hin s hs)
        have a4 := dist_triangle (v' s) (F s (v s)) (F s (u s))
        nlinarith)
    rw [← dist_eq_norm, ← dist_eq_norm, sub_zero] at h
    have h1 : Real.exp (K * t) ≤ Real.exp (K * T) :=
      Real.exp_le_exp.2 (mul_le_mul_of_nonneg_left ht.2 hK0.le)
    have h2 : (dist (v 0) (u 0) + η) * Real.exp (K * t) ≤ (d + η) * Real.exp (K * T) :=
      mul_le_mul (by linarith) h1 (Real.exp_pos _).le (by linarith)
    linarith
  -- the path does not leave the tube
  have hstay : ∀ t ∈ Icc 0 T, dist (v t) (u t) < r := by
    by_contra hne
    push Not at hne
    obtain ⟨t1, ht1, hbad1⟩ := hne
    have hcl : IsClosed (Icc 0 T ∩ (fun t => dist (v t) (u t)) ⁻¹' Ici r) :=
      (continuous_dist.comp_continuousOn (hvcont.prodMk hucont)).preimage_isClosed_of_isClosed isClosed_Icc isClosed_Ici
    have hne' : (Icc 0 T ∩ (fun t => dist (v t) (u t)) ⁻¹' Ici r).Nonempty := ⟨t1, ht1, hbad1⟩
    have hbdd : BddBelow (Icc 0 T ∩ (fun t => dist (v t) (u t)) ⁻¹' Ici r) := ⟨0, fun t ht => ht.1.1⟩
    have hmem := hcl.csInf_mem hne' hbdd
    have h1 := step _ hmem.1 fun s hs => by
      by_contra hge
      push Not at hge
      exact absurd (csInf_le hbdd ⟨⟨hs.1, hs.2.le.trans hmem.1.2⟩, hge⟩) (not_le.2 hs.2)
    exact absurd hmem.2 (not_le.2 (h1.trans_lt hsm))
  exact fun t ht => step t ht fun s hs => hstay s ⟨hs.1, hs.2.le.trans ht.2⟩

/-- The errors of all batches together. -/
theorem AroundLip.batches_near (hF : AroundLip F) (hT : Tame F) {batch : ℚ} (hb : 0 ≤ batch) {y0 : ι → ℝ}
    (hy0 : ∀ i, 0 ≤ y0 i) {exact : (ι → ℝ) → ℚ → ι → ℝ} {n : ℕ} (hex : ExactBatches F exact batch y0 n) :
    ∃ r > 0, ∃ C : ℝ, 0 ≤ C ∧ ∀ (η ε : ℝ) (y0' : ι → ℝ) (solve : (ι → ℝ) → ℚ → ι → ℝ), 0 ≤ η → 0 ≤ ε →
      η + ε + dist y0' y0 ≤ r → NearBatches F η ε solve batch y0' n → ∀ k ≤ n,
        dist (afterBatches solve batch y0' k) (afterBatches exact batch y0 k)
          ≤ C * (η + ε + dist y0' y0) := by
  have hb' : (0 : ℝ) ≤ batch := by exact_mod_cast hb
  have hnn := batches_invariant hex (S := fun y => ∀ i, 0 ≤ y i) hy0
    fun u hu h0 => hT.nonneg hu h0 _ ⟨hb', le_rfl⟩
  have main : ∀ m ≤ n, ∃ r > 0, ∃ C : ℝ, 1 ≤ C ∧ ∀ (η ε : ℝ) (y0' : ι → ℝ) (solve : (ι → ℝ) → ℚ → ι → ℝ),
      0 ≤ η → 0 ≤ ε → η + ε + dist y0' y0 ≤ r → NearBatches F η ε solve batch y0' n → ∀ k ≤ m,
        dist (afterBatches solve batch y0' k) (afterBatches exact batch y0 k)
          ≤ C * (η + ε + dist y0' y0) := by
    intro m
    induction m with
    | zero =>
      refine fun _ => ⟨1, one_pos, 1, le_rfl, fun η ε y0' solve hη hε _ _ k hk => ?_⟩
      obtain rfl : k = 0 := by omega
      change dist y0' y0 ≤ _
      linarith
    | succ m ih =>
      intro hm
      obtain ⟨r, hr, C, hC, h⟩ := ih (by omega)
      obtain ⟨u, hu0, hu, huE⟩ := hex m (by omega)
      have hun := hT.nonneg hu (by rw [hu0]; exact hnn m (by omega))
      obtain ⟨r', hr', C', hC', h'⟩ := hF.stays_near hb' hu hun
      have hC0 : 0 < C + 1 := by linarith
      refine ⟨min r (r' / (C + 1)), lt_min hr (by positivity), max C (C' * (C + 1) + 1),
        hC.trans (le_max_left _ _), fun η ε y0' solve hη hε hsm hnear k hk => ?_⟩
      have hdd : 0 ≤ dist y0' y0 := dist_nonneg
      have hs0 : 0 ≤ η + ε + dist y0' y0 := by linarith
      rcases Nat.lt_or_ge k (m + 1) with hlt | hge
      · exact (h η ε y0' solve hη hε (hsm.trans (min_le_left _ _)) hnear k (by omega)).trans
          (mul_le_mul_of_nonneg_right (le_max_left _ _) hs0)
      · obtain rfl : k = m + 1 := by omega
        obtain ⟨v, hv0, hv, hvE⟩ := hnear m (by omega)
        have h1 := h η ε y0' solve hη hε (hsm.trans (min_le_left _ _)) hnear m le_rfl
        have hsm' : (C + 1) * (η + ε + dist y0' y0) ≤ r' := by
          have := hsm.trans (min_le_right _ _)
          rw [le_div_iff₀ hC0] at this
          linarith
        have h2 := h' (C * (η + ε + dist y0' y0)) η v hη (by nlinarith) (by rw [hv0, hu0]; exact h1) hv
          batch ⟨hb', le_rfl⟩
        rw [huE] at h2
        have h3 := dist_triangle (afterBatches solve batch y0' (m + 1)) (v batch)
          (afterBatches exact batch y0 (m + 1))
        have h4 : C' * (C * (η + ε + dist y0' y0) + η) ≤ C' * (C + 1) * (η + ε + dist y0' y0) := by
          rw [mul_assoc]
          exact mul_le_mul_of_nonneg_left (by nlinarith) (by linarith)
        have h5 := mul_le_mul_of_nonneg_right (le_max_right C (C' * (C + 1) + 1)) hs0
        rw [add_mul, one_mul] at h5
        linarith
  obtain ⟨r, hr, C, hC, h⟩ := main n le_rfl
  exact ⟨r, hr, C, by linarith, h⟩

/-- A path that nearly solves the equation nearly keeps a total that solutions keep. -/
theorem Spec.NearlySolvesOn.total {η : ℝ} {v : ℝ → ι → ℝ} {T : ℝ} (hT : 0 ≤ T) (hv : NearlySolvesOn F η v 0 T)
    (c : ι → ℝ) (hc : ∀ t y, ∑ j, c j * F t y j = 0) :
    |∑ j, c j * v T j - ∑ j, c j * v 0 j| ≤ η * T * ∑ j, |c j| := by
  obtain ⟨hcont, S, hS, hd⟩ := hv
  have half : ∀ c : ι → ℝ, (∀ t y, ∑ j, c j * F t y j = 0) →
      ∑ j, c j * v T j - ∑ j, c j * v 0 j ≤ η * T * ∑ j, |c j| := by
    intro c hc
    choose! v' hv' using hd
    have h := le_off_finite hS (f := fun t => ∑ j, c j * v t j - η * (∑ j, |c j|) * t)
      (f' := fun t => ∑ j, c j * v' t j - η * (∑ j, |c j|)) hT
      (ContinuousOn.sub (continuousOn_finsetSum _ fun i _ =>
        continuousOn_const.mul ((continuous_apply i).comp_continuousOn hcont)) (by fun_prop))
      (fun t ht htS => by
        obtain ⟨h1, h2⟩ := hv' t ht htS
        constructor
        · refine (HasDerivWithinAt.fun_sum fun i _ => (hasDerivWithinAt_pi.1 h1 i).const_mul _).sub ?_
          simpa using (hasDerivWithinAt_id t (Ici t)).const_mul (η * ∑ j, |c j|)
        · have h3 : ∑ j, c j * v' t j = ∑ j, c j * (v' t j - F t (v t) j) := by
            simp only [mul_sub, Finset.sum_sub_distrib, hc, sub_zero]
          have h4 : ∑ j, c j * (v' t j - F t (v t) j) ≤ ∑ j, η * |c j| := by
            refine Finset.sum_le_sum fun j _ => ?_
            refine (le_abs_self _).trans ?_
            rw [abs_mul, mul_comm]
            refine mul_le_mul_of_nonneg_right ?_ (abs_nonneg _)
            rw [← Real.dist_eq]
            exact (dist_le_pi_dist _ _ j).trans h2
          rw [← Finset.mul_sum] at h4
          linarith)
    simp only [mul_zero, sub_zero] at h
    nlinarith [h]
  rw [abs_le]
  refine ⟨?_, half c hc⟩
  have h := half (fun j => - c j) fun t y => by
    simp only [neg_mul, Finset.sum_neg_distrib, hc, neg_zero]
  simp only [neg_mul, Finset.sum_neg_distrib, abs_neg] at h
  linarith

/-- With a solver that makes errors a conserved total drifts by at most this much in each batch. -/
theorem rows_drift (c : ι → ℝ) (hc : ∀ t y, ∑ j, c j * F t y j = 0) {η ε : ℝ}
    {solve : (ι → ℝ) → ℚ → ι → ℝ} {sim batch : ℚ} (hs : 0 < sim)
    (hb : 0 < batch) {zero y0 : ι → ℝ} {times : List ℚ} {rows : List (ι → ℝ)}
    (hrun : runSimulation id solve zero y0 sim batch = .ok (times, rows))
    (hex : NearBatches F η ε solve batch y0 rows.length) :
    ∀ (k : ℕ) (row : ι → ℝ), rows[k]? = some row →
      |∑ j, c j * row j - ∑ j, c j * y0 j| ≤ (k + 1) * (η * batch + ε) * ∑ j, |c j| := by
  have hb' : (0 : ℝ) ≤ batch := by exact_mod_cast hb.le
  obtain ⟨n, -, hr, -⟩ := C32_output_times hs hb hrun
  have hlen : rows.length = n := by rw [hr]; simp
  rw [hlen] at hex
  have key : ∀ k ≤ n, |∑ j, c j * afterBatches solve batch y0 k j - ∑ j, c j * y0 j|
      ≤ k * (η * batch + ε) * ∑ j, |c j| := by
    intro k
    induction k with
    | zero => intro _; simp [afterBatches]
    | succ k ih =>
      intro hk
      obtain ⟨v, hv0, hv, hvE⟩ := hex k (by omega)
      have h1 := ih (by omega)
      have h2 := hv.total hb' c hc
      rw [hv0] at h2
      have h3 : |∑ j, c j * afterBatches solve batch y0 (k + 1) j - ∑ j, c j * v batch j|
          ≤ ε * ∑ j, |c j| := by
        rw [← Finset.sum_sub_distrib, Finset.mul_sum]
        refine (Finset.abs_sum_le_sum_abs _ _).trans (Finset.sum_le_sum fun j _ => ?_)
        rw [← mul_sub, abs_mul, mul_comm]
        refine mul_le_mul_of_nonneg_right ?_ (abs_nonneg _)
        rw [← Real.dist_eq]
        exact (dist_le_pi_dist _ _ j).trans hvE
      rw [abs_le] at h1 h2 h3 ⊢
      push_cast
      constructor <;> nlinarith [h1.1, h1.2, h2.1, h2.2, h3.1, h3.2]
  intro k row hk
  rw [hr] at hk
  obtain ⟨hkn, hrow⟩ := List.getElem?_eq_some_iff.1 hk
  simp only [List.length_map, List.length_range] at hkn
  simp only [List.getElem_map, List.getElem_range] at hrow
  rw [← hrow]
  have := key (k + 1) (by omega)
  push_cast at this
  exact this

namespace Spec

/-- What a run with an exact solver reported is reported by all solvers that make small errors and by all
runs from nearby states, up to a constant times the errors. -/
def Reproducible (F : ℝ → (ι → ℝ) → ι → ℝ) (sim batch : ℚ) (zero y0 : ι → ℝ) (times : List ℚ)
    (rows : List (ι → ℝ)) : Prop :=
  ∃ r > 0, ∃ C : ℝ, 0 ≤ C ∧ ∀ (η ε δ : ℝ) (y0' : ι → ℝ) (solve : (ι → ℝ) → ℚ → ι → ℝ) (times' : List ℚ)
    (rows' : List (ι → ℝ)), 0 ≤ η → 0 ≤ ε → (∀ i, |y0' i - y0 i| ≤ δ) → 0 ≤ δ → η + ε + δ ≤ r →
    runSimulation id solve zero y0' sim batch = .ok (times', rows') →
    NearBatches F η ε solve batch y0' rows'.length →
    times' = times ∧ rows'.length = rows.length ∧ ∀ (k : ℕ) (row row' : ι → ℝ), rows[k]? = some row →
      rows'[k]? = some row' → ∀ i, |row' i - row i| ≤ C * (η + ε + δ)

end Spec

theorem AroundLip.reproducible (hF : AroundLip F) (hT : Tame F) {exact : (ι → ℝ) → ℚ → ι → ℝ}
    {sim batch : ℚ} (hs : 0 < sim) (hb : 0 < batch) {zero y0 : ι → ℝ} (hy0 : ∀ i, 0 ≤ y0 i) {times : List ℚ}
    {rows : List (ι → ℝ)} (hrun : runSimulation id exact zero y0 sim batch = .ok (times, rows))
    (hex : ExactBatches F exact batch y0 rows.length) : Reproducible F sim batch zero y0 times rows := by
  obtain ⟨n, ht, hr, hn⟩ := C32_output_times hs hb hrun
  have hlen : rows.length = n := by rw [hr]; simp
  rw [hlen] at hex
  obtain ⟨r, hr0, C, hC, h⟩ := hF.batches_near hT hb.le hy0 hex
  refine ⟨r, hr0, C, hC, fun η ε δ y0' solve times' rows' hη hε hδ hδ0 hsm hrun' hnear => ?_⟩
  obtain ⟨n', ht', hr', hn'⟩ := C32_output_times hs hb hrun'
  have hnn : n' = n := by
    have : (n' : ℚ) * batch = n * batch := by rw [← hn', ← hn]
    exact_mod_cast mul_right_cancel₀ hb.ne' this
  subst hnn
  have hlen' : rows'.length = n' := by rw [hr']; simp
  have hd : dist y0' y0 ≤ δ := (dist_pi_le_iff hδ0).2 fun i => by rw [Real.dist_eq]; exact hδ i
  refine ⟨by rw [ht, ht'], by rw [hlen, hlen'], fun k row row' hk hk' i => ?_⟩
  rw [hr] at hk
  rw [hr'] at hk'
  obtain ⟨hkn, hrow⟩ := List.getElem?_eq_some_iff.1 hk
  obtain ⟨_, hrow'⟩ := List.getElem?_eq_some_iff.1 hk'
  simp only [List.length_map, List.length_range] at hkn
  simp only [List.getElem_map, List.getElem_range] at hrow hrow'
  rw [hlen'] at hnear
  have h1 := h η ε y0' solve hη hε (by linarith) hnear (k + 1) (by omega)
  rw [hrow, hrow'] at h1
  rw [← Real.dist_eq]
  refine (dist_le_pi_dist _ _ i).trans (h1.trans (mul_le_mul_of_nonneg_left (by linarith) hC))

/-- Concentrations that should not be negative are so by at most the errors. -/
theorem C81_lower {sim batch : ℚ} {zero y0 : ι → ℝ} {times : List ℚ} {rows : List (ι → ℝ)}
    (h : Reproducible F sim batch zero y0 times rows) (hnn : ∀ row ∈ rows, ∀ i, 0 ≤ row i) :
    ∃ r > 0, ∃ C : ℝ, 0 ≤ C ∧ ∀ (η ε : ℝ) (solve : (ι → ℝ) → ℚ → ι → ℝ) (times' : List ℚ)
      (rows' : List (ι → ℝ)), 0 ≤ η → 0 ≤ ε → η + ε ≤ r →
      runSimulation id solve zero y0 sim batch = .ok (times', rows') →
      NearBatches F η ε solve batch y0 rows'.length → ∀ row ∈ rows', ∀ i, - (C * (η + ε)) ≤ row i := by
  obtain ⟨r, hr, C, hC, h⟩ := h
  refine ⟨r, hr, C, hC, fun η ε solve times' rows' hη hε hsm hrun hnear row' hrow' i => ?_⟩
  obtain ⟨-, hlen, hrows⟩ := h η ε 0 y0 solve times' rows' hη hε (fun i => by simp) le_rfl
    (by linarith) hrun hnear
  obtain ⟨k, hk, rfl⟩ := List.mem_iff_getElem.1 hrow'
  have h1 := hrows k _ _ (List.getElem?_eq_getElem (hlen ▸ hk)) (List.getElem?_eq_getElem hk) i
  have h2 := hnn _ (List.getElem_mem (hlen ▸ hk)) i
  rw [abs_le, add_zero] at h1
  linarith [h1.1]

/-- Two solvers that make small errors agree up to a constant times the errors, if there is an exact one. -/
theorem AroundLip.agree (hF : AroundLip F) (hT : Tame F) {exact : (ι → ℝ) → ℚ → ι → ℝ}
    {sim batch : ℚ} (hs : 0 < sim) (hb : 0 < batch) {zero y0 : ι → ℝ} (hy0 : ∀ i, 0 ≤ y0 i)
    (hex : ∀ k, ExactBatches F exact batch y0 k) :
    ∃ r > 0, ∃ C : ℝ, 0 ≤ C ∧ ∀ (η ε η' ε' : ℝ) (solve solve' : (ι → ℝ) → ℚ → ι → ℝ) (times times' : List ℚ)
      (rows rows' : List (ι → ℝ)), 0 ≤ η → 0 ≤ ε → 0 ≤ η' → 0 ≤ ε' → η + ε ≤ r → η' + ε' ≤ r →
      runSimulation id solve zero y0 sim batch = .ok (times, rows) →
      runSimulation id solve' zero y0 sim batch = .ok (times', rows') →
      NearBatches F η ε solve batch y0 rows.length → NearBatches F η' ε' solve' batch y0 rows'.length →
      times = times' ∧ rows.length = rows'.length ∧ ∀ (k : ℕ) (row row' : ι → ℝ), rows[k]? = some row →
        rows'[k]? = some row' → ∀ i, |row i - row' i| ≤ C * (η + ε + η' + ε') := by
  by_cases hn : ∃ n : ℕ, sim = n * batch
  · obtain ⟨n, rfl⟩ := hn
    have hn0 : 0 < n := by
      rcases Nat.eq_zero_or_pos n with h | h
      · rw [h] at hs; simp at hs
      · exact h
    have hrun := C32_C33_whole_batches hn0 hb (exact_id batch n) exact zero y0
    obtain ⟨r, hr, C, hC, h⟩ := hF.reproducible hT hs hb hy0 hrun (hex _)
    refine ⟨r, hr, C, hC, fun η ε η' ε' solve solve' times times' rows rows' h1 h2 h3 h4 h5 h6 r1 r2 n1 n2 => ?_⟩
    obtain ⟨a1, a2, a3⟩ := h η ε 0 y0 solve times rows h1 h2 (fun i => by simp) le_rfl (by linarith) r1 n1
    obtain ⟨b1, b2, b3⟩ := h η' ε' 0 y0 solve' times' rows' h3 h4 (fun i => by simp) le_rfl (by linarith) r2 n2
    refine ⟨a1.trans b1.symm, a2.trans b2.symm, fun k row row' hk hk' i => ?_⟩
    obtain ⟨hlt, -⟩ := List.getElem?_eq_some_iff.1 hk
    have hlt' := hlt
    rw [a2] at hlt'
    have c1 := a3 k _ _ (List.getElem?_eq_getElem hlt') hk i
    have c2 := b3 k _ _ (List.getElem?_eq_getElem hlt') hk' i
    rw [abs_le] at c1 c2 ⊢
    constructor <;> linarith [c1.1, c1.2, c2.1, c2.2]
  · refine ⟨1, one_pos, 0, le_rfl, fun η ε η' ε' solve solve' times times' rows rows' _ _ _ _ _ _ r1 _ _ _ => ?_⟩
    obtain ⟨n, -, -, h⟩ := C32_output_times hs hb r1
    exact absurd ⟨n, h⟩ hn

omit [Fintype ι] in
/-- Solving with a right-hand side that is off by at most `η` is nearly solving. -/
theorem C81_rounding [Fintype ι] {G : ℝ → (ι → ℝ) → ι → ℝ} {v : ℝ → ι → ℝ} {a b η : ℝ} (hη : 0 ≤ η)
    (hv : SolvesOn G v a b) (h : ∀ t ∈ Ico a b, ∀ i, |G t (v t) i - F t (v t) i| ≤ η) :
    NearlySolvesOn F η v a b := by
  obtain ⟨hc, S, hS, hd⟩ := hv
  refine ⟨hc, S, hS, fun t ht htS => ⟨_, hd t ht htS, (dist_pi_le_iff hη).2 fun i => ?_⟩⟩
  rw [Real.dist_eq]
  exact h t ht i

/-- A solver that hands back `ε` more of everything than there is makes an error of `ε`. -/
theorem shifted_near {solve : (ι → ℝ) → ℚ → ι → ℝ} {batch : ℚ} (hb : 0 ≤ batch) (hT : Tame F)
    (hex : ∀ y0, (∀ i, 0 ≤ y0 i) → ∀ k, ExactBatches F solve batch y0 k) {ε : ℝ} (hε : 0 ≤ ε)
    {y0 : ι → ℝ} (hy0 : ∀ i, 0 ≤ y0 i) (n : ℕ) :
    NearBatches F 0 ε (fun y d i => solve y d i + ε) batch y0 n := by
  have hb' : (0 : ℝ) ≤ batch := by exact_mod_cast hb
  have hnn : ∀ k, ∀ i, 0 ≤ afterBatches (fun y d i => solve y d i + ε) batch y0 k i := by
    intro k
    induction k with
    | zero => exact hy0
    | succ k ih =>
      intro i
      obtain ⟨u, hu0, hu, huE⟩ := hex _ ih 1 0 one_pos
      have h1 := hT.nonneg hu (by rw [hu0]; exact ih) batch ⟨hb', le_rfl⟩ i
      rw [huE] at h1
      have h2 : afterBatches (fun y d i => solve y d i + ε) batch y0 (k + 1)
          = fun i => solve (afterBatches (fun y d i => solve y d i + ε) batch y0 k) batch i + ε :=
        Function.iterate_succ_apply' _ _ _
      rw [h2]
      exact add_nonneg h1 hε
  intro k _
  obtain ⟨u, hu0, ⟨hc, S, hS, hd⟩, huE⟩ := hex _ (hnn k) 1 0 one_pos
  refine ⟨u, hu0, ⟨hc, S, hS, fun t ht htS => ⟨_, hd t ht htS, by rw [dist_self]⟩⟩, ?_⟩
  have h2 : afterBatches (fun y d i => solve y d i + ε) batch y0 (k + 1)
      = fun i => solve (afterBatches (fun y d i => solve y d i + ε) batch y0 k) batch i + ε :=
    Function.iterate_succ_apply' _ _ _
  rw [huE, h2]
  refine (dist_pi_le_iff hε).2 fun i => ?_
  rw [Real.dist_eq]
  change |solve (afterBatches (fun y d i => solve y d i + ε) batch y0 k) batch i + ε
    - solve (afterBatches (fun y d i => solve y d i + ε) batch y0 k) batch i| ≤ ε
  rw [add_sub_cancel_left, abs_of_nonneg hε]

end

end PyBox
