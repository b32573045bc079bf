import Mathlib.Analysis.ODE.Gronwall

/-!
# Finitely many exceptional times

The photolysis rates of the generated programs jump at sunrise and sunset, so a trajectory need not have
the prescribed slope at these times. The two facts here say that finitely many such times do not matter.
-/

namespace PyBox

open Set Filter Topology

/-- A continuous function whose slope to the right is nowhere positive, except perhaps at finitely many
places, does not grow. -/
theorem le_off_finite {S : Set ℝ} (hS : S.Finite) {f f' : ℝ → ℝ} :
    ∀ {a b : ℝ}, a ≤ b → ContinuousOn f (Icc a b) →
      (∀ t ∈ Ico a b, t ∉ S → HasDerivWithinAt f (f' t) (Ici t) t ∧ f' t ≤ 0) → f b ≤ f a := by
  induction S, hS using Set.Finite.induction_on with
  | empty =>
    intro a b hab hc hd
    exact image_le_of_deriv_right_le_deriv_boundary hc (fun t ht => (hd t ht (notMem_empty t)).1)
      (B := fun _ => f a) (B' := fun _ => 0) le_rfl continuousOn_const
      (fun x _ => hasDerivWithinAt_const _ _ _) (fun t ht => (hd t ht (notMem_empty t)).2)
      ⟨hab, le_rfl⟩
  | @insert s S hs _ ih =>
    intro a b hab hc hd
    by_cases hmem : s ∈ Ico a b
    · have h1 : f s ≤ f a := by
        refine ih hmem.1 (hc.mono (Icc_subset_Icc le_rfl hmem.2.le)) fun t ht htS => ?_
        exact hd t ⟨ht.1, ht.2.trans hmem.2⟩ (by rw [mem_insert_iff, not_or]; exact ⟨ht.2.ne, htS⟩)
      refine le_trans ?_ h1
      have h2 : ∀ x ∈ Ioc s b, f b ≤ f x := by
        intro x hx
        refine ih hx.2 (hc.mono (Icc_subset_Icc (hmem.1.trans hx.1.le) le_rfl)) fun t ht htS => ?_
        exact hd t ⟨hmem.1.trans (hx.1.le.trans ht.1), ht.2⟩
          (by rw [mem_insert_iff, not_or]; exact ⟨(hx.1.trans_le ht.1).ne', htS⟩)
      have hlim : Tendsto f (𝓝[>] s) (𝓝 (f s)) := by
        have : ContinuousWithinAt f (Icc a b) s := hc s (Ico_subset_Icc_self hmem)
        refine this.mono_left (nhdsWithin_le_of_mem ?_)
        exact mem_of_superset (Ioc_mem_nhdsGT hmem.2) fun x hx => ⟨hmem.1.trans hx.1.le, hx.2⟩
      exact ge_of_tendsto hlim (mem_of_superset (Ioc_mem_nhdsGT hmem.2) h2)
    · refine ih hab hc fun t ht htS => hd t ht ?_
      rw [mem_insert_iff, not_or]
      exact ⟨fun he => hmem (he ▸ ht), htS⟩

/-- Two trajectories stay as close as their start allows. -/
theorem dist_off_finite {E : Type*} [NormedAddCommGroup E] [NormedSpace ℝ E] {S : Set ℝ} (hS : S.Finite)
    {G : ℝ → E → E} {B : Set E} {K : NNReal} {u v : ℝ → E} :
    ∀ {a b : ℝ}, a ≤ b → (∀ t ∈ Ico a b, LipschitzOnWith K (G t) B) →
      ContinuousOn u (Icc a b) → (∀ t ∈ Ico a b, t ∉ S → HasDerivWithinAt u (G t (u t)) (Ici t) t) →
      (∀ t ∈ Ico a b, u t ∈ B) →
      ContinuousOn v (Icc a b) → (∀ t ∈ Ico a b, t ∉ S → HasDerivWithinAt v (G t (v t)) (Ici t) t) →
      (∀ t ∈ Ico a b, v t ∈ B) → dist (u b) (v b) ≤ dist (u a) (v a) * Real.exp (K * (b - a)) := by
  induction S, hS using Set.Finite.induction_on with
  | empty =>
    intro a b hab hL hu hu' huB hv hv' hvB
    exact dist_le_of_trajectories_ODE_of_mem (s := fun _ => B) hL hu
      (fun t ht => hu' t ht (notMem_empty t)) huB hv (fun t ht => hv' t ht (notMem_empty t)) hvB le_rfl
      b ⟨hab, le_rfl⟩
  | @insert s S hs _ ih =>
    intro a b hab hL hu hu' huB hv hv' hvB
    by_cases hmem : s ∈ Ico a b
    · have hleft : ∀ t ∈ Ico a s, t ∉ S → t ∈ Ico a b ∧ t ∉ insert s S := fun t ht htS =>
        ⟨⟨ht.1, ht.2.trans hmem.2⟩, by rw [mem_insert_iff, not_or]; exact ⟨ht.2.ne, htS⟩⟩
      have hin : ∀ t ∈ Ico a s, t ∈ Ico a b := fun t ht => ⟨ht.1, ht.2.trans hmem.2⟩
      have hsub : Icc a s ⊆ Icc a b := Icc_subset_Icc le_rfl hmem.2.le
      have h1 : dist (u s) (v s) ≤ dist (u a) (v a) * Real.exp (K * (s - a)) :=
        ih hmem.1 (fun t ht => hL t (hin t ht)) (hu.mono hsub)
          (fun t ht htS => hu' t (hleft t ht htS).1 (hleft t ht htS).2) (fun t ht => huB t (hin t ht))
          (hv.mono hsub) (fun t ht htS => hv' t (hleft t ht htS).1 (hleft t ht htS).2)
          (fun t ht => hvB t (hin t ht))
      have h2 : ∀ x ∈ Ioc s b, dist (u b) (v b) ≤ dist (u x) (v x) * Real.exp (K * (b - x)) := by
        intro x hx
        have hin : ∀ t ∈ Ico x b, t ∈ Ico a b := fun t ht => ⟨hmem.1.trans (hx.1.le.trans ht.1), ht.2⟩
        have hne : ∀ t ∈ Ico x b, t ∉ S → t ∉ insert s S := fun t ht htS => by
          rw [mem_insert_iff, not_or]; exact ⟨(hx.1.trans_le ht.1).ne', htS⟩
        have hsub : Icc x b ⊆ Icc a b := Icc_subset_Icc (hmem.1.trans hx.1.le) le_rfl
        exact ih hx.2 (fun t ht => hL t (hin t ht)) (hu.mono hsub)
          (fun t ht htS => hu' t (hin t ht) (hne t ht htS)) (fun t ht => huB t (hin t ht))
          (hv.mono hsub) (fun t ht htS => hv' t (hin t ht) (hne t ht htS))
          (fun t ht => hvB t (hin t ht))
      have hnear : Ioc s b ⊆ Icc a b := fun x hx => ⟨hmem.1.trans hx.1.le, hx.2⟩
      have hmem' := Ioc_mem_nhdsGT hmem.2
      have hlim : Tendsto (fun x => dist (u x) (v x) * Real.exp (K * (b - x))) (𝓝[>] s)
          (𝓝 (dist (u s) (v s) * Real.exp (K * (b - s)))) := by
        have hus := (hu s (Ico_subset_Icc_self hmem)).mono_left
          (nhdsWithin_le_of_mem (mem_of_superset hmem' hnear))
        have hvs := (hv s (Ico_subset_Icc_self hmem)).mono_left
          (nhdsWithin_le_of_mem (mem_of_superset hmem' hnear))
        refine (hus.dist hvs).mul ?_
        have : Continuous fun x : ℝ => Real.exp (K * (b - x)) := by fun_prop
        exact this.continuousAt.continuousWithinAt
      have h3 := ge_of_tendsto hlim (mem_of_superset hmem' h2)
      refine h3.trans ?_
      have h4 := mul_le_mul_of_nonneg_right h1 (Real.exp_pos (K * (b - s))).le
      refine h4.trans (le_of_eq ?_)
      rw [mul_assoc, ← Real.exp_add]
      congr 2
      ring
    · have hne : ∀ t ∈ Ico a b, t ∉ S → t ∉ insert s S := fun t ht htS => by
        rw [mem_insert_iff, not_or]
        exact ⟨fun he => hmem (he ▸ ht), htS⟩
      exact ih hab hL hu (fun t ht htS => hu' t ht (hne t ht htS)) huB hv
        (fun t ht htS => hv' t ht (hne t ht htS)) hvB

end PyBox
