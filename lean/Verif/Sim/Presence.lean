import Verif.Sim.Tame

/-!
# Which components of a solution are positive

General facts about the systems of `Sim/Tame.lean`, used for the simulations: a component that is
positive stays positive, a component that is pushed up from 0 becomes positive, and components that
only feed on each other stay 0 together.
-/

namespace PyBox

open Set Spec Filter Topology

section Solution

variable {ι : Type} [Fintype ι] {G : ℝ → (ι → ℝ) → ι → ℝ} {u : ℝ → ι → ℝ} {b R : ℝ} {K : NNReal}

/-- A component of a solution falls at most exponentially. -/
theorem Spec.SolvesOn.decay (hu : SolvesOn G u 0 b) (hbox : ∀ t ∈ Icc 0 b, u t ∈ box R)
    (hlip : ∀ t ∈ Icc 0 b, LipschitzOnWith K (G t) (box R)) (hq : ∀ t, QuasiPositive (G t)) (i : ι)
    {s t : ℝ} (hs : 0 ≤ s) (hst : s ≤ t) (ht : t ≤ b) :
    Real.exp (K * s) * u s i ≤ Real.exp (K * t) * u t i := by
  classical
  obtain ⟨S, hS, hd⟩ := hu.2
  have hcomp : ContinuousOn (fun t => u t i) (Icc s t) :=
    ((continuous_apply i).comp_continuousOn hu.1).mono (Icc_subset_Icc hs ht)
  have hexp : ∀ r, HasDerivAt (fun r => Real.exp (K * r)) (Real.exp (K * r) * K) r := by
    intro r
    have h1 : HasDerivAt (fun r : ℝ => (K : ℝ) * r) K r := by
      simpa using (hasDerivAt_id r).const_mul (K : ℝ)
    exact h1.exp
  have h := le_off_finite hS (f := fun r => -(Real.exp (K * r) * u r i))
    (f' := fun r => -(Real.exp (K * r) * K * u r i + Real.exp (K * r) * G r (u r) i)) hst
    ((ContinuousOn.mul (by fun_prop) hcomp).neg) (fun r hr hrS => by
      have hr0 : 0 ≤ r := hs.trans hr.1
      have hrb : r < b := hr.2.trans_le ht
      refine ⟨((hexp r).hasDerivWithinAt.mul (hasDerivWithinAt_pi.1 (hd r ⟨hr0, hrb⟩ hrS) i)).neg, ?_⟩
      have hmem : r ∈ Icc 0 b := ⟨hr0, hrb.le⟩
      have hb := hbox r hmem
      set v := Function.update (u r) i 0 with hv
      have hvi : v i = 0 := by rw [hv, Function.update_self]
      have hv0 : v ∈ box R := by
        intro j
        by_cases hj : j = i
        · rw [hj, hvi]; exact ⟨le_rfl, (hb i).1.trans (hb i).2⟩
        · rw [hv, Function.update_of_ne hj]; exact hb j
      have h1 := (hlip r hmem).dist_le_mul _ hb _ hv0
      have h2 : dist (u r) v ≤ u r i := by
        rw [dist_pi_le_iff (hb i).1]
        intro j
        by_cases hj : j = i
        · rw [hj, hvi, Real.dist_eq, sub_zero, abs_of_nonneg (hb i).1]
        · rw [hv, Function.update_of_ne hj, dist_self]; exact (hb i).1
      have h3 := hq r v (fun j => (hv0 j).1) i hvi
      have h4 := (dist_le_pi_dist (G r (u r)) (G r v) i).trans
        (h1.trans (mul_le_mul_of_nonneg_left h2 K.2))
      rw [Real.dist_eq] at h4
      have h5 := (abs_le.1 h4).1
      have h6 : 0 ≤ (K : ℝ) * u r i + G r (u r) i := by
        have : ((K : NNReal) : ℝ) * u r i = K * u r i := rfl
        linarith
      have := mul_nonneg (Real.exp_pos (K * r)).le h6
      simp only [neg_nonpos]
      nlinarith)
  clear hexp
  linarith

/-- What is there stays. -/
theorem Spec.SolvesOn.persists (hu : SolvesOn G u 0 b) (hbox : ∀ t ∈ Icc 0 b, u t ∈ box R)
    (hlip : ∀ t ∈ Icc 0 b, LipschitzOnWith K (G t) (box R)) (hq : ∀ t, QuasiPositive (G t)) {i : ι}
    {s t : ℝ} (hs : 0 ≤ s) (hst : s ≤ t) (ht : t ≤ b) (h : 0 < u s i) : 0 < u t i := by
  have h1 := hu.decay hbox hlip hq i hs hst ht
  have h2 := mul_pos (Real.exp_pos (K * s)) h
  exact pos_of_mul_pos_right (h2.trans_le h1) (Real.exp_pos _).le

/-- What is pushed up from 0 during some time is there from then on. -/
theorem Spec.SolvesOn.appears (hu : SolvesOn G u 0 b) (hbox : ∀ t ∈ Icc 0 b, u t ∈ box R)
    (hlip : ∀ t ∈ Icc 0 b, LipschitzOnWith K (G t) (box R)) (hq : ∀ t, QuasiPositive (G t)) {i : ι}
    {a c : ℝ} (ha : 0 ≤ a) (hac : a < c) (hup : ∀ t ∈ Ioo a c, t < b → u t i = 0 → 0 < G t (u t) i) :
    ∀ t ∈ Ioc a b, 0 < u t i := by
  intro t ht
  by_contra hn
  have h0 : u t i = 0 := le_antisymm (not_lt.1 hn) (hbox t ⟨ha.trans ht.1.le, ht.2⟩ i).1
  have hz : ∀ s ∈ Ioc a t, u s i = 0 := by
    intro s hs
    by_contra hne
    have hs0 : 0 ≤ s := ha.trans hs.1.le
    have hpos : 0 < u s i :=
      lt_of_le_of_ne (hbox s ⟨hs0, hs.2.trans ht.2⟩ i).1 fun h => hne h.symm
    exact hn (hu.persists hbox hlip hq hs0 hs.2 ht.2 hpos)
  obtain ⟨S, hS, hd⟩ := hu.2
  have hlt : a < min t c := lt_min ht.1 hac
  obtain ⟨s, hs, hsS⟩ := (Ioo_infinite hlt).exists_notMem_finite hS
  have hst : s < t := hs.2.trans_le (min_le_left _ _)
  have hsc : s < c := hs.2.trans_le (min_le_right _ _)
  have hsb : s < b := hst.trans_le ht.2
  have h1 := hasDerivWithinAt_pi.1 (hd s ⟨ha.trans hs.1.le, hsb⟩ hsS) i
  have h2 : HasDerivWithinAt (fun r => u r i) 0 (Ici s) s := by
    refine (hasDerivWithinAt_const s (Ici s) (0 : ℝ)).congr_of_eventuallyEq ?_ (hz s ⟨hs.1, hst.le⟩)
    have : Iio t ∈ 𝓝[Ici s] s := mem_nhdsWithin_of_mem_nhds (Iio_mem_nhds hst)
    filter_upwards [this, self_mem_nhdsWithin] with r hr hr'
    exact hz r ⟨hs.1.trans_le hr', le_of_lt hr⟩
  have h3 := (uniqueDiffWithinAt_Ici s).eq_deriv _ h1 h2
  have h4 := hup s ⟨hs.1, hsc⟩ hsb (hz s ⟨hs.1, hst.le⟩)
  linarith

/-- What can only come from itself does not come. -/
theorem Spec.SolvesOn.stays_zero (hu : SolvesOn G u 0 b) (hbox : ∀ t ∈ Icc 0 b, u t ∈ box R)
    (hlip : ∀ t ∈ Icc 0 b, LipschitzOnWith K (G t) (box R)) {P : ι → Prop}
    (hclosed : ∀ t ∈ Ico 0 b, ∀ y : ι → ℝ, (∀ j, 0 ≤ y j) → (∀ j, ¬ P j → y j = 0) → ∀ i, ¬ P i → G t y i ≤ 0)
    (h0 : ∀ j, ¬ P j → u 0 j = 0) : ∀ t ∈ Icc 0 b, ∀ i, ¬ P i → u t i = 0 := by
  classical
  set Z : Finset ι := Finset.univ.filter fun j => ¬ P j with hZ
  have hmem : ∀ j, j ∈ Z ↔ ¬ P j := fun j => by rw [hZ, Finset.mem_filter]; simp
  set g : ℝ → ℝ := fun t => ∑ j ∈ Z, u t j with hg
  set C : ℝ := Z.card * K with hC
  obtain ⟨S, hS, hd⟩ := hu.2
  have hg0 : ∀ t ∈ Icc 0 b, 0 ≤ g t := fun t ht => Finset.sum_nonneg fun j _ => (hbox t ht j).1
  have hexp : ∀ r, HasDerivAt (fun r => Real.exp (-(C * r))) (Real.exp (-(C * r)) * (-C)) r := by
    intro r
    have : HasDerivAt (fun t => -(C * t)) (-C) r := by
      have h1 := ((hasDerivAt_id r).const_mul C).fun_neg
      simpa using h1
    exact this.exp
  have hest : ∀ t ∈ Ico 0 b, ∑ j ∈ Z, G t (u t) j ≤ C * g t := by
    intro t ht
    have htm : t ∈ Icc 0 b := Ico_subset_Icc_self ht
    have hb := hbox t htm
    set v : ι → ℝ := fun j => if P j then u t j else 0 with hv
    have hv0 : v ∈ box R := by
      intro j
      rw [hv]
      dsimp only
      split
      · exact hb j
      · exact ⟨le_rfl, (hb j).1.trans (hb j).2⟩
    have hdist : dist (u t) v ≤ g t := by
      rw [dist_pi_le_iff (hg0 t htm)]
      intro j
      by_cases hj : P j
      · rw [hv]; simp only [if_pos hj, dist_self]; exact hg0 t htm
      · rw [hv]
        simp only [if_neg hj]
        rw [Real.dist_eq, sub_zero, abs_of_nonneg (hb j).1]
        exact Finset.single_le_sum (f := fun j => u t j) (fun j _ => (hb j).1) ((hmem j).2 hj)
    have hterm : ∀ j ∈ Z, G t (u t) j ≤ K * g t := by
      intro j hj
      have h1 := hclosed t ht v (fun j => (hv0 j).1) (fun j hj => if_neg hj) j ((hmem j).1 hj)
      have h2 := (dist_le_pi_dist (G t (u t)) (G t v) j).trans
        (((hlip t htm).dist_le_mul _ hb _ hv0).trans (mul_le_mul_of_nonneg_left hdist K.2))
      rw [Real.dist_eq] at h2
      have h3 := (abs_le.1 h2).2
      have : ((K : NNReal) : ℝ) * g t = K * g t := rfl
      linarith
    calc _ ≤ ∑ _j ∈ Z, (K : ℝ) * g t := Finset.sum_le_sum hterm
      _ = C * g t := by rw [Finset.sum_const, nsmul_eq_mul, hC]; ring
  intro t ht i hi
  have hsub : Icc 0 t ⊆ Icc 0 b := Icc_subset_Icc le_rfl ht.2
  have hgc : ContinuousOn g (Icc 0 t) :=
    (continuousOn_finsetSum _ fun j _ => (continuous_apply j).comp_continuousOn hu.1).mono hsub
  have h := le_off_finite hS (f := fun t => Real.exp (-(C * t)) * g t)
    (f' := fun t => Real.exp (-(C * t)) * (-C) * g t + Real.exp (-(C * t)) * ∑ j ∈ Z, G t (u t) j) ht.1
    (ContinuousOn.mul (by fun_prop) hgc) (fun s hs hsS => by
      have hs' : s ∈ Ico 0 b := ⟨hs.1, hs.2.trans_le ht.2⟩
      refine ⟨(hexp s).hasDerivWithinAt.mul (HasDerivWithinAt.fun_sum fun j _ =>
        hasDerivWithinAt_pi.1 (hd s hs' hsS) j), ?_⟩
      have := mul_le_mul_of_nonneg_left (hest s hs') (Real.exp_pos (-(C * s))).le
      linarith)
  have hz : g 0 = 0 := Finset.sum_eq_zero fun j hj => h0 j ((hmem j).1 hj)
  simp only [hz, mul_zero] at h
  have h1 : g t ≤ 0 := by
    by_contra hn
    have := mul_pos (Real.exp_pos (-(C * t))) (not_le.1 hn)
    linarith
  have h2 := Finset.single_le_sum (f := fun j => u t j) (fun j _ => (hbox t ht j).1) ((hmem i).2 hi)
  exact le_antisymm (h2.trans h1) (hbox t ht i).1

end Solution

/-- Rows have the properties of states at the end of a batch. -/
theorem rows_property {E : Type*} [NormedAddCommGroup E] [NormedSpace ℝ E] {F : ℝ → E → E}
    {solve : E → ℚ → E} {sim batch : ℚ} {zero y0 : E} (hs : 0 < sim) (hb : 0 < batch)
    {times : List ℚ} {rows : List E}
    (hrun : runSimulation id solve zero y0 sim batch = .ok (times, rows))
    (hex : ExactBatches F solve batch y0 rows.length) {S T : E → Prop} (h0 : S y0)
    (hstep : ∀ u : ℝ → E, SolvesOn F u 0 batch → S (u 0) → S (u batch) ∧ T (u batch)) :
    ∀ row ∈ rows, T row := by
  obtain ⟨n, -, hr, -⟩ := C32_output_times hs hb hrun
  intro row hrow
  have hlen : rows.length = n := by rw [hr]; simp
  rw [hlen] at hex
  rw [hr, List.mem_map] at hrow
  obtain ⟨k, hk, rfl⟩ := hrow
  have hk := List.mem_range.1 hk
  have hS := batches_invariant hex h0 (fun u hu hu0 => (hstep u hu hu0).1) k hk.le
  obtain ⟨u, h1, h2, h3⟩ := hex k hk
  rw [← h3]
  exact (hstep u h2 (by rw [h1]; exact hS)).2

/-- The components that are positive in the rows of a run are those that can be reached from the
components positive at the start: `P` contains those, contains nothing that cannot be reached in the
time between `a` and `c`, and does not feed anything else. -/
theorem Tame.rows_present {ι : Type} [Fintype ι] {F : ℝ → (ι → ℝ) → ι → ℝ} (hF : Tame F)
    (hB : BoxPieces F) {solve : (ι → ℝ) → ℚ → ι → ℝ} {sim batch : ℚ} (hs : 0 < sim) (hb : 0 < batch)
    {zero y0 : ι → ℝ} (hy0 : ∀ i, 0 ≤ y0 i) {times : List ℚ} {rows : List (ι → ℝ)}
    (hrun : runSimulation id solve zero y0 sim batch = .ok (times, rows))
    (hex : ExactBatches F solve batch y0 rows.length) {P : ι → Prop} (hstart : ∀ i, 0 < y0 i → P i)
    {a c : ℝ} (ha : 0 ≤ a) (hac : a < c) (hcb : c ≤ batch)
    (hreach : ∀ Q : ι → Prop, (∀ i, 0 < y0 i → Q i) →
      (∀ i, (∀ t ∈ Ioo a c, ∀ y : ι → ℝ, (∀ j, 0 ≤ y j) → (∀ j, Q j → 0 < y j) → y i = 0 → 0 < F t y i) →
        Q i) → ∀ i, P i → Q i)
    (hclosed : ∀ t ∈ Ico (0 : ℝ) batch, ∀ y : ι → ℝ, (∀ j, 0 ≤ y j) → (∀ j, ¬ P j → y j = 0) →
      ∀ i, ¬ P i → F t y i ≤ 0) : ∀ row ∈ rows, ∀ i, 0 < row i ↔ P i := by
  have hb' : (0 : ℝ) ≤ batch := by exact_mod_cast hb.le
  have hbb : (batch : ℝ) ∈ Icc (0 : ℝ) batch := ⟨hb', le_rfl⟩
  refine rows_property hs hb hrun hex
    (S := fun y => (∀ i, 0 ≤ y i) ∧ (∀ i, ¬ P i → y i = 0) ∧ ∀ i, 0 < y0 i → 0 < y i)
    (T := fun y => ∀ i, 0 < y i ↔ P i)
    ⟨hy0, fun i hi => le_antisymm (not_lt.1 fun h => hi (hstart i h)) (hy0 i), fun _ h => h⟩ ?_
  rintro u hu ⟨h1, h2, h3⟩
  have hn := hF.nonneg hu h1
  obtain ⟨R, hR, hRu⟩ := PyBox.SolvesOn.bounded hu
  obtain ⟨K, M, hKM⟩ := SetLip.components (hB.lip batch R hR)
  have hbox : ∀ t ∈ Icc (0 : ℝ) batch, u t ∈ box R := fun t ht i => ⟨hn t ht i, hRu t ht i⟩
  have hlip : ∀ t ∈ Icc (0 : ℝ) batch, LipschitzOnWith K (F t) (box R) := fun t ht => (hKM t ht).1
  have hz := hu.stays_zero hbox hlip hclosed h2
  have hpos : ∀ i, P i → ∀ t ∈ Ioc a batch, 0 < u t i := by
    refine hreach _ (fun i hi t ht => ?_) fun i hi => ?_
    · exact hu.persists hbox hlip hF.quasi le_rfl (ha.trans ht.1.le) ht.2 (h3 i hi)
    · refine hu.appears hbox hlip hF.quasi ha hac fun t ht htb h0 => hi t ht _
        (hn t ⟨ha.trans ht.1.le, htb.le⟩) (fun j hj => hj t ⟨ht.1, htb.le⟩) h0
  refine ⟨⟨hn _ hbb, hz _ hbb, fun i hi => ?_⟩, fun i => ⟨fun h => ?_, fun h => ?_⟩⟩
  · exact hu.persists hbox hlip hF.quasi le_rfl hb' le_rfl (h3 i hi)
  · by_contra hP
    rw [hz _ hbb i hP] at h
    exact lt_irrefl _ h
  · exact hpos i h _ ⟨hac.trans_le hcb, le_rfl⟩

end PyBox
