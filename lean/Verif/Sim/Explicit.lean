import Verif.Sim.Sensitive

/-!
# How far two runs can be apart, in numbers

As `Sim/Sensitive.lean`, with the constant written out: `K` is a Lipschitz constant of the first right-hand side in the
set of states, and the two right-hand sides differ by at most `ω` there.
-/

namespace PyBox

open Set Spec

namespace Spec

/-- `K` is a Lipschitz constant of a right-hand side on a set of states, for the largest difference of a concentration. -/
def LipschitzSlope {n : ℕ} (F : ℝ → (Fin n → ℝ) → Fin n → ℝ) (T : ℝ) (P : Set (Fin n → ℝ)) (K : ℝ) : Prop :=
  0 ≤ K ∧ ∀ s ∈ Ico 0 T, ∀ z ∈ P, ∀ z' ∈ P, ∀ D, (∀ i, |z i - z' i| ≤ D) → ∀ i, |F s z i - F s z' i| ≤ K * D

/-- Two right-hand sides differ by at most `ω` on a set of states. -/
def SlopesWithin {n : ℕ} (ω T : ℝ) (P : Set (Fin n → ℝ)) (F G : ℝ → (Fin n → ℝ) → Fin n → ℝ) : Prop :=
  0 ≤ ω ∧ ∀ s ∈ Ico 0 T, ∀ z ∈ P, ∀ i, |G s z i - F s z i| ≤ ω

/-- What two runs report at time `t`, in the `k`-th row, differs by at most this much: `δ` in the beginning, slopes that
differ by `ω` and are followed up to `η` and `η'`, and `ε` and `ε'` at the end of each batch. -/
noncomputable def apartBy (K ω δ η ε η' ε' t : ℝ) (k : ℕ) : ℝ :=
  Real.exp (K * t) * (δ + t * (ω + η + η') + k * (ε + ε'))

/-- What is reported at the same times differs by at most `bound`. -/
def RowsWithin {n : ℕ} (bound : ℚ → ℕ → ℝ) (times times' : List ℚ) (rows rows' : List (Fin n → ℝ)) : Prop :=
  times' = times ∧ rows'.length = rows.length ∧ ∀ (k : ℕ) (t : ℚ) (row row' : Fin n → ℝ), times[k]? = some t →
    rows[k]? = some row → rows'[k]? = some row' → ∀ i, |row' i - row i| ≤ bound t (k + 1)

/-- Two runs: the first with `F`, the second with `G`. -/
structure TwoRuns {n : ℕ} (P : Set (Fin n → ℝ)) (F G : ℝ → (Fin n → ℝ) → Fin n → ℝ) (sim batch : ℚ) (δ η ε η' ε' : ℝ)
    (times times' : List ℚ) (rows rows' : List (Fin n → ℝ)) : Prop where
  run : ∃ solve zero y0 solve' zero' y0', runSimulation id solve zero y0 sim batch = .ok (times, rows) ∧
    runSimulation id solve' zero' y0' sim batch = .ok (times', rows') ∧ (∀ i, |y0' i - y0 i| ≤ δ) ∧
    NearBatchesIn P F η ε solve batch y0 rows.length ∧ NearBatchesIn P G η' ε' solve' batch y0' rows'.length
  start : 0 ≤ δ
  slope : 0 ≤ η ∧ 0 ≤ η'
  ends : 0 ≤ ε ∧ 0 ≤ ε'

end Spec

variable {ι : Type} [Fintype ι] {P : Set (ι → ℝ)} {F G : ℝ → (ι → ℝ) → ι → ℝ}

/-- Growth over a time `T`, for any Lipschitz constant. -/
theorem growth_explicit {E : Type*} [NormedAddCommGroup E] [NormedSpace ℝ E] {S : Set ℝ} (hS : S.Finite)
    {f f' : ℝ → E} {K s T : ℝ} (hK : 0 ≤ K) (hs : 0 ≤ s) (hT : 0 ≤ T) (hf : ContinuousOn f (Icc 0 T))
    (hd : ∀ t ∈ Ico 0 T, t ∉ S → HasDerivWithinAt f (f' t) (Ici t) t ∧ ‖f' t‖ ≤ K * ‖f t‖ + s) :
    ‖f T‖ ≤ Real.exp (K * T) * (‖f 0‖ + T * s) := by
  have main : ∀ κ, 0 < κ → K ≤ κ → ‖f T‖ ≤ Real.exp (κ * T) * (‖f 0‖ + T * s) := by
    intro κ hκ hle
    have h := growth_off_finite hS (c := s / κ) hκ hT hf (fun t ht htS => ⟨(hd t ht htS).1, (hd t ht htS).2.trans (by
      rw [mul_add, mul_div_cancel₀ _ hκ.ne']
      have := mul_le_mul_of_nonneg_right hle (norm_nonneg (f t))
      linarith)⟩)
    rw [sub_zero] at h
    have h1 : (Real.exp (κ * T) - 1) ≤ κ * T * Real.exp (κ * T) := by
      have h2 := Real.add_one_le_exp (-(κ * T))
      have h3 := mul_le_mul_of_nonneg_right h2 (Real.exp_pos (κ * T)).le
      rw [← Real.exp_add, neg_add_cancel, Real.exp_zero] at h3
      linarith
    have h4 := mul_le_mul_of_nonneg_left h1 (div_nonneg hs hκ.le)
    have h5 : s / κ * (κ * T * Real.exp (κ * T)) = T * s * Real.exp (κ * T) := by
      field_simp
    rw [h5] at h4
    linarith
  rcases hK.eq_or_lt with rfl | h
  · have hlim : Filter.Tendsto (fun κ : ℝ => Real.exp (κ * T) * (‖f 0‖ + T * s)) (nhdsWithin 0 (Ioi 0))
        (nhds (Real.exp (0 * T) * (‖f 0‖ + T * s))) := by
      have : Continuous fun κ : ℝ => Real.exp (κ * T) * (‖f 0‖ + T * s) := by fun_prop
      exact this.continuousAt.continuousWithinAt
    exact ge_of_tendsto hlim (Filter.eventually_of_mem self_mem_nhdsWithin fun κ hκ => main κ hκ (le_of_lt hκ))
  · exact main K h le_rfl

/-- Two paths in a set. -/
theorem paths_explicit {T K ω η η' : ℝ} (hT : 0 ≤ T) (hK : 0 ≤ K)
    (hlip : ∀ s ∈ Ico 0 T, ∀ z ∈ P, ∀ z' ∈ P, dist (F s z) (F s z') ≤ K * dist z z')
    (hω : ∀ s ∈ Ico 0 T, ∀ z ∈ P, dist (G s z) (F s z) ≤ ω) {v w : ℝ → ι → ℝ}
    (hv : NearlySolvesOn F η v 0 T) (hvP : ∀ t ∈ Ico 0 T, v t ∈ P) (hw : NearlySolvesOn G η' w 0 T)
    (hwP : ∀ t ∈ Ico 0 T, w t ∈ P) (h0 : 0 ≤ ω + η + η') :
    dist (w T) (v T) ≤ Real.exp (K * T) * (dist (w 0) (v 0) + T * (ω + η + η')) := by
  obtain ⟨hvc, S, hS, hvd⟩ := hv
  obtain ⟨hwc, S', hS', hwd⟩ := hw
  choose! v' hv' using hvd
  choose! w' hw' using hwd
  have h := growth_explicit (hS.union hS') (f := fun t => w t - v t) (f' := fun t => w' t - v' t)
    (s := ω + η + η') hK h0 hT (hwc.sub hvc) (fun s hs hsS => by
      obtain ⟨a1, a2⟩ := hv' s hs fun h => hsS (Or.inl h)
      obtain ⟨b1, b2⟩ := hw' s hs fun h => hsS (Or.inr h)
      refine ⟨b1.sub a1, ?_⟩
      rw [← dist_eq_norm, ← dist_eq_norm]
      have c1 := hlip s hs _ (hwP s hs) _ (hvP s hs)
      have c2 := hω s hs _ (hwP s hs)
      have c3 := dist_triangle4 (w' s) (G s (w s)) (F s (w s)) (F s (v s))
      have c4 := dist_triangle (w' s) (F s (v s)) (v' s)
      rw [dist_comm (F s (v s))] at c4
      linarith)
  rwa [← dist_eq_norm, ← dist_eq_norm] at h

/-- Two series of batches in a set. -/
theorem batches_explicit {batch : ℚ} (hb : 0 ≤ batch) {K : ℝ} (hK : 0 ≤ K)
    (hlip : ∀ s ∈ Ico 0 (batch : ℝ), ∀ z ∈ P, ∀ z' ∈ P, dist (F s z) (F s z') ≤ K * dist z z') {n : ℕ}
    {ω η ε η' ε' : ℝ} {y0 y0' : ι → ℝ} {solve solve' : (ι → ℝ) → ℚ → ι → ℝ} (h1 : 0 ≤ ω) (h2 : 0 ≤ η) (h3 : 0 ≤ ε)
    (h4 : 0 ≤ η') (h5 : 0 ≤ ε') (hω : ∀ s ∈ Ico 0 (batch : ℝ), ∀ z ∈ P, dist (G s z) (F s z) ≤ ω)
    (hn : NearBatchesIn P F η ε solve batch y0 n) (hn' : NearBatchesIn P G η' ε' solve' batch y0' n) (k : ℕ)
    (hk : k ≤ n) : dist (afterBatches solve' batch y0' k) (afterBatches solve batch y0 k)
      ≤ apartBy K ω (dist y0' y0) η ε η' ε' (k * batch) k := by
  have hb' : (0 : ℝ) ≤ batch := by exact_mod_cast hb
  induction k with
  | zero => simp [apartBy, afterBatches]
  | succ k ih =>
    have ih := ih (by omega)
    obtain ⟨v, hv0, hv, hvP, hvE⟩ := hn k (by omega)
    obtain ⟨w, hw0, hw, hwP, hwE⟩ := hn' k (by omega)
    have g2 := paths_explicit hb' hK hlip hω hv hvP hw hwP (by linarith)
    rw [hv0, hw0] at g2
    have g3 := dist_triangle4 (afterBatches solve' batch y0' (k + 1)) (w batch) (v batch)
      (afterBatches solve batch y0 (k + 1))
    rw [dist_comm (v batch)] at g3
    have hE : 1 ≤ Real.exp (K * batch) := Real.one_le_exp (mul_nonneg hK hb')
    have hEk : 1 ≤ Real.exp (K * (k * batch)) := Real.one_le_exp (by positivity)
    have e : Real.exp (K * (((k + 1 : ℕ) : ℝ) * batch)) = Real.exp (K * (k * batch)) * Real.exp (K * batch) := by
      rw [← Real.exp_add]
      congr 1
      push_cast
      ring
    unfold apartBy at ih ⊢
    rw [e]
    push_cast
    generalize Real.exp (K * batch) = a at *
    generalize Real.exp (K * (k * batch)) = b at *
    have hs : 0 ≤ batch * (ω + η + η') := mul_nonneg hb' (by linarith)
    have p1 : a * dist (afterBatches solve' batch y0' k) (afterBatches solve batch y0 k) ≤
        a * (b * (dist y0' y0 + k * batch * (ω + η + η') + k * (ε + ε'))) := mul_le_mul_of_nonneg_left ih (by linarith)
    have p2 : a * (batch * (ω + η + η')) ≤ b * a * (batch * (ω + η + η')) :=
      mul_le_mul_of_nonneg_right (by nlinarith) hs
    have p3 : ε + ε' ≤ b * a * (ε + ε') := le_mul_of_one_le_left (by linarith) (by nlinarith)
    linarith

section

variable {n : ℕ} {P : Set (Fin n → ℝ)} {F G : ℝ → (Fin n → ℝ) → Fin n → ℝ} {sim batch : ℚ}
  {K ω δ η ε η' ε' : ℝ} {times times' : List ℚ} {rows rows' : List (Fin n → ℝ)}

theorem Spec.LipschitzSlope.dist_le {T : ℝ} (h : LipschitzSlope F T P K) {s : ℝ} (hs : s ∈ Ico 0 T) {z : Fin n → ℝ}
    (hz : z ∈ P) {z' : Fin n → ℝ} (hz' : z' ∈ P) : dist (F s z) (F s z') ≤ K * dist z z' :=
  (dist_pi_le_iff (mul_nonneg h.1 dist_nonneg)).2 fun i => by
    rw [Real.dist_eq]
    exact h.2 s hs z hz z' hz' _ (fun i => by rw [← Real.dist_eq]; exact dist_le_pi_dist z z' i) i

/-- **C94**: what two runs report, in numbers. -/
theorem C94_runs (hs : 0 < sim) (hb : 0 < batch) (hK : LipschitzSlope F batch P K) (hω : SlopesWithin ω batch P F G)
    (h : TwoRuns P F G sim batch δ η ε η' ε' times times' rows rows') :
    RowsWithin (fun t k => apartBy K ω δ η ε η' ε' t k) times times' rows rows' := by
  obtain ⟨⟨solve, zero, y0, solve', zero', y0', hrun, hrun', hδ, hnear, hnear'⟩, h6, ⟨h2, h4⟩, h3, h5⟩ := h
  obtain ⟨n1, ht, hr, hn1⟩ := C32_output_times hs hb hrun
  obtain ⟨n2, ht', hr', hn2⟩ := C32_output_times hs hb hrun'
  obtain rfl : n1 = n2 := by
    have : (n1 : ℚ) * batch = n2 * batch := by rw [← hn1, ← hn2]
    exact_mod_cast mul_right_cancel₀ hb.ne' this
  have hlen : rows.length = n1 := by rw [hr]; simp
  have hlen' : rows'.length = n1 := by rw [hr']; simp
  have hd : dist y0' y0 ≤ δ := (dist_pi_le_iff h6).2 fun i => by rw [Real.dist_eq]; exact hδ i
  refine ⟨by rw [ht, ht'], by rw [hlen, hlen'], fun k t row row' hkt hk hk' i => ?_⟩
  rw [hlen] at hnear
  rw [hlen'] at hnear'
  rw [hr] at hk
  rw [hr'] at hk'
  rw [ht] at hkt
  obtain ⟨hkn, hrow⟩ := List.getElem?_eq_some_iff.1 hk
  obtain ⟨_, hrow'⟩ := List.getElem?_eq_some_iff.1 hk'
  obtain ⟨_, htime⟩ := List.getElem?_eq_some_iff.1 hkt
  simp only [List.length_map, List.length_range] at hkn
  simp only [List.getElem_map, List.getElem_range] at hrow hrow' htime
  have g1 := batches_explicit hb.le hK.1 (fun s hs z hz z' hz' => hK.dist_le hs hz hz') hω.1 h2 h3 h4 h5
    (fun s hs z hz => (dist_pi_le_iff hω.1).2 fun i => by rw [Real.dist_eq]; exact hω.2 s hs z hz i)
    hnear hnear' (k + 1) (by omega)
  rw [hrow, hrow'] at g1
  rw [← Real.dist_eq]
  refine (dist_le_pi_dist _ _ i).trans (g1.trans ?_)
  rw [← htime]
  unfold apartBy
  push_cast
  exact mul_le_mul_of_nonneg_left (by linarith) (Real.exp_pos _).le

end

end PyBox
