import Verif.Props.Trajectory
import Mathlib.Analysis.SpecialFunctions.ExpDeriv
import Mathlib.Topology.Order.IntermediateValue

/-!
# Solutions that cannot leave the non-negative states

A general fact about ordinary differential equations, used for the simulations: a system whose
right-hand side is locally Lipschitz at non-negative states and never pushes a vanishing component
below zero keeps non-negative states non-negative.
-/

namespace PyBox

open Set Spec

variable {ι : Type} [Fintype ι]

namespace Spec

/-- The right-hand side never pushes a component that is zero below zero. -/
def QuasiPositive (G : (ι → ℝ) → ι → ℝ) : Prop :=
  ∀ y, (∀ i, 0 ≤ y i) → ∀ i, y i = 0 → 0 ≤ G y i

/-- From time `t` on, for a while, the right-hand side is Lipschitz near `y`. -/
def LipschitzNear (G : ℝ → (ι → ℝ) → ι → ℝ) (t : ℝ) (y : ι → ℝ) : Prop :=
  ∃ K : NNReal, ∃ ε > 0, ∀ s ∈ Ico t (t + ε), LipschitzOnWith K (G s) (Metric.ball y ε)

end Spec

/-- Negative part of a number, squared. -/
theorem hasDerivAt_negSq (x : ℝ) : HasDerivAt (fun x => (min x 0) ^ 2) (2 * min x 0) x := by
  rcases lt_trichotomy x 0 with hx | rfl | hx
  · have h : HasDerivAt (fun x : ℝ => x ^ 2) (2 * x) x := by
      simpa using hasDerivAt_pow 2 x
    rw [min_eq_left hx.le]
    refine h.congr_of_eventuallyEq ?_
    filter_upwards [Iio_mem_nhds hx] with z hz
    rw [min_eq_left (le_of_lt hz)]
  · rw [hasDerivAt_iff_isLittleO_nhds_zero]
    simp only [zero_add, min_self, mul_zero, smul_zero, sub_zero]
    rw [show ((0 : ℝ) ^ 2) = 0 by norm_num]
    simp only [sub_zero]
    have hO : (fun h : ℝ => (min h 0) ^ 2) =O[nhds 0] (fun h => h ^ 2) := by
      refine Asymptotics.IsBigO.of_bound 1 (Filter.Eventually.of_forall fun h => ?_)
      rw [one_mul, Real.norm_of_nonneg (sq_nonneg _), Real.norm_of_nonneg (sq_nonneg _)]
      rcases le_total h 0 with h0 | h0
      · rw [min_eq_left h0]
      · rw [min_eq_right h0]; nlinarith [sq_nonneg h]
    refine hO.trans_isLittleO ?_
    have := Asymptotics.isLittleO_pow_id (𝕜 := ℝ) (n := 2) (by norm_num)
    exact this
  · rw [min_eq_right hx.le, mul_zero]
    refine (hasDerivAt_const x (0 : ℝ)).congr_of_eventuallyEq ?_
    filter_upwards [Ioi_mem_nhds hx] with z hz
    rw [min_eq_right (le_of_lt hz)]
    norm_num

/-- Setting negative components to zero. -/
def posPart' (y : ι → ℝ) : ι → ℝ := fun i => max (y i) 0

theorem posPart'_dist {y z : ι → ℝ} (hz : ∀ i, 0 ≤ z i) : dist (posPart' y) z ≤ dist y z := by
  rw [dist_pi_le_iff dist_nonneg]
  intro i
  refine le_trans ?_ (dist_le_pi_dist y z i)
  unfold posPart'
  rw [Real.dist_eq, Real.dist_eq]
  rcases le_total (y i) 0 with h | h
  · rw [max_eq_right h, abs_of_nonpos (by linarith [hz i]), abs_of_nonpos (by linarith [hz i])]
    linarith
  · rw [max_eq_left h]

/-- One short step: from a non-negative state the solution stays non-negative for a while. -/
theorem nonneg_step {G : ℝ → (ι → ℝ) → ι → ℝ} {u : ℝ → ι → ℝ} {a b : ℝ} {z : ι → ℝ} {ε : ℝ}
    {K : NNReal} (hu : SolvesOn G u a b) (hz : ∀ i, 0 ≤ z i) (ha : ∀ i, 0 ≤ u a i)
    (hball : ∀ t ∈ Icc a b, u t ∈ Metric.ball z ε)
    (hlip : ∀ t ∈ Ico a b, LipschitzOnWith K (G t) (Metric.ball z ε))
    (hq : ∀ t ∈ Ico a b, QuasiPositive (G t)) : ∀ t ∈ Icc a b, ∀ i, 0 ≤ u t i := by
  classical
  set g : ℝ → ℝ := fun t => ∑ i, (min (u t i) 0) ^ 2 with hg
  set C : ℝ := 2 * (Fintype.card ι) * K with hC
  have hcomp : ∀ i, ContinuousOn (fun t => u t i) (Icc a b) := fun i =>
    (continuous_apply i).comp_continuousOn hu.1
  have hgc : ContinuousOn g (Icc a b) := by
    refine continuousOn_finsetSum _ fun i _ => ?_
    exact ((hcomp i).inf continuousOn_const).pow 2
  obtain ⟨S, hS, hud⟩ := hu.2
  have hgd : ∀ t ∈ Ico a b, t ∉ S →
      HasDerivWithinAt g (∑ i, 2 * min (u t i) 0 * G t (u t) i) (Ici t) t := by
    intro t ht htS
    have hsum := HasDerivWithinAt.fun_sum (u := Finset.univ)
      (A := fun i t => (min (u t i) 0) ^ 2) (A' := fun i => 2 * min (u t i) 0 * G t (u t) i)
      (x := t) (s := Ici t) (fun i _ => by
        have h1 := hasDerivWithinAt_pi.1 (hud t ht htS) i
        exact (hasDerivAt_negSq (u t i)).comp_hasDerivWithinAt t h1)
    exact hsum
  -- the estimate
  have hest : ∀ t ∈ Ico a b, ∑ i, 2 * min (u t i) 0 * G t (u t) i ≤ C * g t := by
    intro t ht
    have htc : t ∈ Icc a b := Ico_subset_Icc_self ht
    set v := posPart' (u t) with hv
    have hv0 : ∀ i, 0 ≤ v i := fun i => le_max_right _ _
    have hvb : v ∈ Metric.ball z ε :=
      lt_of_le_of_lt (posPart'_dist hz) (hball t htc)
    -- size of the negative part
    have hdist : dist (u t) v ≤ Real.sqrt (g t) := by
      rw [dist_pi_le_iff (Real.sqrt_nonneg _)]
      intro i
      have h1 : dist (u t i) (v i) = |min (u t i) 0| := by
        rw [Real.dist_eq, hv]
        unfold posPart'
        rcases le_total (u t i) 0 with h | h
        · rw [max_eq_right h, min_eq_left h, sub_zero]
        · rw [max_eq_left h, min_eq_right h, sub_self]
      rw [h1]
      refine Real.abs_le_sqrt ?_
      rw [hg]
      exact Finset.single_le_sum (f := fun i => (min (u t i) 0) ^ 2) (fun i _ => sq_nonneg _)
        (Finset.mem_univ i)
    have hK : ∀ i, |G t (u t) i - G t v i| ≤ K * Real.sqrt (g t) := by
      intro i
      have h1 := (hlip t ht).dist_le_mul _ (hball t htc) _ hvb
      rw [← Real.dist_eq]
      exact (dist_le_pi_dist _ _ i).trans (h1.trans (mul_le_mul_of_nonneg_left hdist K.2))
    have hg0 : 0 ≤ g t := Finset.sum_nonneg fun i _ => sq_nonneg _
    have hterm : ∀ i, 2 * min (u t i) 0 * G t (u t) i ≤ 2 * (K * g t) := by
      intro i
      rcases le_total 0 (u t i) with h | h
      · rw [min_eq_right h]
        have : 0 ≤ (K : ℝ) * g t := mul_nonneg K.2 hg0
        linarith
      · rw [min_eq_left h]
        have hvi : v i = 0 := max_eq_right h
        have hGv := hq t ht v hv0 i hvi
        have h2 := (abs_le.1 (hK i)).1
        have h3 : -(u t i) ≤ Real.sqrt (g t) := by
          rw [← abs_of_nonpos h]
          refine Real.abs_le_sqrt ?_
          have := Finset.single_le_sum (f := fun i => (min (u t i) 0) ^ 2)
            (fun i _ => sq_nonneg _) (Finset.mem_univ i)
          simp only [min_eq_left h] at this
          exact this
        have h4 : -(K * Real.sqrt (g t)) ≤ G t (u t) i := by linarith
        have hs := Real.sqrt_nonneg (g t)
        have hss := Real.mul_self_sqrt hg0
        have hKs : 0 ≤ (K : ℝ) * Real.sqrt (g t) := mul_nonneg K.2 hs
        have h5 : u t i * G t (u t) i ≤ u t i * -(K * Real.sqrt (g t)) :=
          mul_le_mul_of_nonpos_left h4 h
        have h6 : u t i * -(K * Real.sqrt (g t)) = -(u t i) * (K * Real.sqrt (g t)) := by ring
        have h7 : -(u t i) * (K * Real.sqrt (g t)) ≤ Real.sqrt (g t) * (K * Real.sqrt (g t)) :=
          mul_le_mul_of_nonneg_right h3 hKs
        have h8 : Real.sqrt (g t) * (K * Real.sqrt (g t)) = K * g t := by
          calc _ = K * (Real.sqrt (g t) * Real.sqrt (g t)) := by ring
            _ = _ := by rw [hss]
        nlinarith
    calc _ ≤ ∑ _i : ι, 2 * (K * g t) := Finset.sum_le_sum fun i _ => hterm i
      _ = C * g t := by rw [Finset.sum_const, Finset.card_univ, nsmul_eq_mul, hC]; ring
  -- Gronwall
  have hfin : ∀ t ∈ Icc a b, Real.exp (-(C * t)) * g t ≤ 0 := by
    have hexp : ∀ t, HasDerivAt (fun t => Real.exp (-(C * t))) (Real.exp (-(C * t)) * (-C)) t := by
      intro t
      have : HasDerivAt (fun t => -(C * t)) (-C) t := by
        have h1 := ((hasDerivAt_id t).const_mul C).fun_neg
        simpa using h1
      exact this.exp
    intro t ht
    have hsub : Icc a t ⊆ Icc a b := Icc_subset_Icc le_rfl ht.2
    have hend := le_off_finite hS (f := fun t => Real.exp (-(C * t)) * g t)
      (f' := fun t => Real.exp (-(C * t)) * (-C) * g t
        + Real.exp (-(C * t)) * ∑ i, 2 * min (u t i) 0 * G t (u t) i) ht.1
      ((ContinuousOn.mul (by fun_prop) hgc).mono hsub) (fun s hs hsS => by
        have hs' : s ∈ Ico a b := ⟨hs.1, hs.2.trans_le ht.2⟩
        refine ⟨(hexp s).hasDerivWithinAt.mul (hgd s hs' hsS), ?_⟩
        have := mul_le_mul_of_nonneg_left (hest s hs') (Real.exp_pos (-(C * s))).le
        linarith)
    have : g a = 0 := Finset.sum_eq_zero fun i _ => by rw [min_eq_right (ha i)]; norm_num
    simp only [this, mul_zero] at hend
    exact hend
  intro t ht i
  have h1 := hfin t ht
  have h2 : g t ≤ 0 := by
    by_contra hn
    push Not at hn
    have := mul_pos (Real.exp_pos (-(C * t))) hn
    linarith
  have h3 : (min (u t i) 0) ^ 2 ≤ 0 := by
    refine le_trans ?_ h2
    exact Finset.single_le_sum (f := fun i => (min (u t i) 0) ^ 2) (fun i _ => sq_nonneg _)
      (Finset.mem_univ i)
  have h4 : min (u t i) 0 = 0 := by
    have := le_antisymm h3 (sq_nonneg _)
    exact pow_eq_zero_iff (by norm_num) |>.1 this
  exact min_eq_right_iff.1 h4

/-- Non-negative states stay non-negative. -/
theorem SolvesOn.nonneg {G : ℝ → (ι → ℝ) → ι → ℝ} {u : ℝ → ι → ℝ} {a b : ℝ}
    (hu : SolvesOn G u a b) (h0 : ∀ i, 0 ≤ u a i)
    (hlip : ∀ t ∈ Ico a b, ∀ y : ι → ℝ, (∀ i, 0 ≤ y i) → LipschitzNear G t y)
    (hq : ∀ t ∈ Ico a b, QuasiPositive (G t)) : ∀ t ∈ Icc a b, ∀ i, 0 ≤ u t i := by
  set S : Set ℝ := {t | ∀ i, 0 ≤ u t i} with hS
  have hclosed : IsClosed (S ∩ Icc a b) := by
    have : S ∩ Icc a b = Icc a b ∩ u ⁻¹' {y | ∀ i, 0 ≤ y i} := by
      ext t; constructor
      · rintro ⟨h1, h2⟩; exact ⟨h2, h1⟩
      · rintro ⟨h1, h2⟩; exact ⟨h2, h1⟩
    rw [this]
    refine hu.1.preimage_isClosed_of_isClosed isClosed_Icc ?_
    rw [show {y : ι → ℝ | ∀ i, 0 ≤ y i} = ⋂ i, {y | 0 ≤ y i} by ext; simp]
    exact isClosed_iInter fun i => isClosed_le continuous_const (continuous_apply i)
  have hsub := IsClosed.Icc_subset_of_forall_exists_gt hclosed h0 (by
    rintro x ⟨hxS, hx⟩ y hy
    obtain ⟨K, ε, hε, hL⟩ := hlip x hx (u x) hxS
    -- the solution stays in the ball for a while
    have hcx : ContinuousWithinAt u (Icc a b) x := hu.1 x (Ico_subset_Icc_self hx)
    have hmem : u ⁻¹' Metric.ball (u x) ε ∈ nhdsWithin x (Icc a b) :=
      hcx (Metric.ball_mem_nhds _ hε)
    obtain ⟨δ, hδ, hδb⟩ := Metric.mem_nhdsWithin_iff.1 hmem
    set c := min (min y b) (x + min ε δ / 2) with hc
    have hmin : 0 < min ε δ := lt_min hε hδ
    have hxc : x < c := lt_min (lt_min hy hx.2) (by linarith)
    have hcb : c ≤ b := (min_le_left _ _).trans (min_le_right _ _)
    have hcy : c ≤ y := (min_le_left _ _).trans (min_le_left _ _)
    have hce : c ≤ x + min ε δ / 2 := min_le_right _ _
    have hεδ : min ε δ ≤ ε := min_le_left _ _
    have hεδ' : min ε δ ≤ δ := min_le_right _ _
    refine ⟨c, ?_, hxc, hcy⟩
    have hsol : SolvesOn G u x c := by
      obtain ⟨S, hS, hud⟩ := hu.2
      exact ⟨hu.1.mono (Icc_subset_Icc hx.1 hcb), S, hS,
        fun t ht htS => hud t ⟨hx.1.trans ht.1, ht.2.trans_le hcb⟩ htS⟩
    refine nonneg_step (z := u x) (ε := ε) (K := K) hsol hxS hxS ?_ ?_ ?_ c ⟨hxc.le, le_rfl⟩
    · intro t ht
      refine hδb ⟨?_, hx.1.trans ht.1, ht.2.trans hcb⟩
      rw [Metric.mem_ball, Real.dist_eq, abs_of_nonneg (by linarith [ht.1])]
      linarith [ht.2]
    · intro t ht
      exact hL t ⟨ht.1, by linarith [ht.2]⟩
    · intro t ht
      exact hq t ⟨hx.1.trans ht.1, ht.2.trans_le hcb⟩)
  exact fun t ht => hsub ht

end PyBox
