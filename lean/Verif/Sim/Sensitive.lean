import Verif.Sim.Near

/-!
# Two systems whose right-hand sides differ

Two runs follow two right-hand sides that differ by at most `ω` in a set of states, each with a solver that makes
errors. As long as both stay in the set, on which one of the two right-hand sides is Lipschitz, what they report differs by at most a
constant times `ω` and the errors of the solvers. Unlike in `Sim/Near.lean` the differences need not be small.
-/

namespace PyBox

open Set Spec

namespace Spec

/-- As `NearBatches`, with paths that stay in a set. -/
def NearBatchesIn {E : Type*} [NormedAddCommGroup E] [NormedSpace ℝ E] (P : Set E) (F : ℝ → E → E) (η ε : ℝ)
    (solve : E → ℚ → E) (batch : ℚ) (y0 : E) (n : ℕ) : Prop :=
  ∀ k < n, ∃ v : ℝ → E, v 0 = afterBatches solve batch y0 k ∧ NearlySolvesOn F η v 0 batch ∧
    (∀ t ∈ Ico 0 (batch : ℝ), v t ∈ P) ∧ dist (afterBatches solve batch y0 (k + 1)) (v batch) ≤ ε

end Spec

variable {ι : Type} [Fintype ι] {P : Set (ι → ℝ)} {F G : ℝ → (ι → ℝ) → ι → ℝ}

/-- Two paths in a set. -/
theorem paths_near {T K ω η η' : ℝ} (hT : 0 ≤ T) (hK : 1 ≤ K)
    (hlip : ∀ s ∈ Ico 0 T, ∀ z ∈ P, ∀ z' ∈ P, dist (F s z) (F s z') ≤ K * dist z z')
    (hω : ∀ s ∈ Ico 0 T, ∀ z ∈ P, dist (G s z) (F s z) ≤ ω) {v w : ℝ → ι → ℝ}
    (hv : NearlySolvesOn F η v 0 T) (hvP : ∀ t ∈ Ico 0 T, v t ∈ P) (hw : NearlySolvesOn G η' w 0 T)
    (hwP : ∀ t ∈ Ico 0 T, w t ∈ P) (h0 : 0 ≤ ω + η + η') :
    dist (w T) (v T) ≤ Real.exp (K * T) * (dist (w 0) (v 0) + (ω + η + η')) := by
  obtain ⟨hvc, S, hS, hvd⟩ := hv
  obtain ⟨hwc, S', hS', hwd⟩ := hw
  choose! v' hv' using hvd
  choose! w' hw' using hwd
  have h := growth_off_finite (hS.union hS') (f := fun t => w t - v t) (f' := fun t => w' t - v' t)
    (c := ω + η + η') (K := K) (by linarith) hT (hwc.sub hvc) (fun s hs hsS => by
      obtain ⟨a1, a2⟩ := hv' s hs fun h => hsS (Or.inl h)
      obtain ⟨b1, b2⟩ := hw' s hs fun h => hsS (Or.inr h)
      refine ⟨b1.sub a1, ?_⟩
      rw [← dist_eq_norm, ← dist_eq_norm]
      have c1 := hlip s hs _ (hwP s hs) _ (hvP s hs)
      have c2 := hω s hs _ (hwP s hs)
      have c3 := dist_triangle4 (w' s) (G s (w s)) (F s (w s)) (F s (v s))
      have c4 := dist_triangle (w' s) (F s (v s)) (v' s)
      rw [dist_comm (F s (v s))] at c4
      nlinarith)
  rw [← dist_eq_norm, ← dist_eq_norm, sub_zero] at h
  linarith

/-- Two series of batches in a set. -/
theorem batches_apart {batch : ℚ} (hb : 0 ≤ batch) {K : ℝ} (hK : 1 ≤ K)
    (hlip : ∀ s ∈ Ico 0 (batch : ℝ), ∀ z ∈ P, ∀ z' ∈ P, dist (F s z) (F s z') ≤ K * dist z z') (n : ℕ) :
    ∃ C : ℝ, 0 ≤ C ∧ ∀ (G : ℝ → (ι → ℝ) → ι → ℝ) (ω η ε η' ε' : ℝ) (y0 y0' : ι → ℝ)
      (solve solve' : (ι → ℝ) → ℚ → ι → ℝ), 0 ≤ ω → 0 ≤ η → 0 ≤ ε → 0 ≤ η' → 0 ≤ ε' →
      (∀ s ∈ Ico 0 (batch : ℝ), ∀ z ∈ P, dist (G s z) (F s z) ≤ ω) →
      NearBatchesIn P F η ε solve batch y0 n → NearBatchesIn P G η' ε' solve' batch y0' n → ∀ k ≤ n,
        dist (afterBatches solve' batch y0' k) (afterBatches solve batch y0 k)
          ≤ C * (ω + (η + ε) + (η' + ε') + dist y0' y0) := by
  have hb' : (0 : ℝ) ≤ batch := by exact_mod_cast hb
  have hE : 0 ≤ Real.exp (K * batch) := (Real.exp_pos _).le
  have main : ∀ m ≤ n, ∃ C : ℝ, 1 ≤ C ∧ ∀ (G : ℝ → (ι → ℝ) → ι → ℝ) (ω η ε η' ε' : ℝ) (y0 y0' : ι → ℝ)
      (solve solve' : (ι → ℝ) → ℚ → ι → ℝ), 0 ≤ ω → 0 ≤ η → 0 ≤ ε → 0 ≤ η' → 0 ≤ ε' →
      (∀ s ∈ Ico 0 (batch : ℝ), ∀ z ∈ P, dist (G s z) (F s z) ≤ ω) →
      NearBatchesIn P F η ε solve batch y0 n → NearBatchesIn P G η' ε' solve' batch y0' n → ∀ k ≤ m,
        dist (afterBatches solve' batch y0' k) (afterBatches solve batch y0 k)
          ≤ C * (ω + (η + ε) + (η' + ε') + dist y0' y0) := by
    intro m
    induction m with
    | zero =>
      refine fun _ => ⟨1, le_rfl, fun G ω η ε η' ε' y0 y0' solve solve' h1 h2 h3 h4 h5 _ _ _ k hk => ?_⟩
      obtain rfl : k = 0 := by omega
      change dist y0' y0 ≤ _
      linarith
    | succ m ih =>
      intro hm
      obtain ⟨C, hC, h⟩ := ih (by omega)
      refine ⟨max C (Real.exp (K * batch) * (C + 1) + 1), hC.trans (le_max_left _ _),
        fun G ω η ε η' ε' y0 y0' solve solve' h1 h2 h3 h4 h5 hω hn hn' k hk => ?_⟩
      have hdd : 0 ≤ dist y0' y0 := dist_nonneg
      have hs0 : 0 ≤ ω + (η + ε) + (η' + ε') + dist y0' y0 := by linarith
      rcases Nat.lt_or_ge k (m + 1) with hlt | hge
      · exact (h G ω η ε η' ε' y0 y0' solve solve' h1 h2 h3 h4 h5 hω hn hn' k (by omega)).trans
          (mul_le_mul_of_nonneg_right (le_max_left _ _) hs0)
      · obtain rfl : k = m + 1 := by omega
        obtain ⟨v, hv0, hv, hvP, hvE⟩ := hn m (by omega)
        obtain ⟨w, hw0, hw, hwP, hwE⟩ := hn' m (by omega)
        have g1 := h G ω η ε η' ε' y0 y0' solve solve' h1 h2 h3 h4 h5 hω hn hn' m le_rfl
        have g2 := paths_near hb' hK hlip hω hv hvP hw hwP (by linarith)
        rw [hv0, hw0] at g2
        have g3 := dist_triangle4 (afterBatches solve' batch y0' (m + 1)) (w batch) (v batch)
          (afterBatches solve batch y0 (m + 1))
        rw [dist_comm (v batch)] at g3
        have g4 : Real.exp (K * batch) * (dist (afterBatches solve' batch y0' m) (afterBatches solve batch y0 m)
            + (ω + η + η')) ≤ Real.exp (K * batch) * ((C + 1) * (ω + (η + ε) + (η' + ε') + dist y0' y0)) :=
          mul_le_mul_of_nonneg_left (by linarith) hE
        have g5 := mul_le_mul_of_nonneg_right (le_max_right C (Real.exp (K * batch) * (C + 1) + 1)) hs0
        rw [add_mul, one_mul, mul_assoc] at g5
        linarith
  obtain ⟨C, hC, h⟩ := main n le_rfl
  exact ⟨C, by linarith, h⟩

/-- What two runs report. The constant depends on the first right-hand side, the set, and the length of the
simulation and its batches only. -/
theorem runs_apart {sim batch : ℚ} (hs : 0 < sim) (hb : 0 < batch) {K : ℝ} (hK : 1 ≤ K)
    (hlip : ∀ s ∈ Ico 0 (batch : ℝ), ∀ z ∈ P, ∀ z' ∈ P, dist (F s z) (F s z') ≤ K * dist z z') :
    ∃ C : ℝ, 0 ≤ C ∧ ∀ (G : ℝ → (ι → ℝ) → ι → ℝ) (ω η ε η' ε' δ : ℝ) (zero zero' y0 y0' : ι → ℝ)
      (solve solve' : (ι → ℝ) → ℚ → ι → ℝ) (times times' : List ℚ) (rows rows' : List (ι → ℝ)),
      0 ≤ ω → 0 ≤ η → 0 ≤ ε → 0 ≤ η' → 0 ≤ ε' → 0 ≤ δ →
      (∀ s ∈ Ico 0 (batch : ℝ), ∀ z ∈ P, ∀ i, |G s z i - F s z i| ≤ ω) → (∀ i, |y0' i - y0 i| ≤ δ) →
      runSimulation id solve zero y0 sim batch = .ok (times, rows) →
      runSimulation id solve' zero' y0' sim batch = .ok (times', rows') →
      NearBatchesIn P F η ε solve batch y0 rows.length →
      NearBatchesIn P G η' ε' solve' batch y0' rows'.length →
      times' = times ∧ rows'.length = rows.length ∧ ∀ (k : ℕ) (row row' : ι → ℝ), rows[k]? = some row →
        rows'[k]? = some row' → ∀ i, |row' i - row i| ≤ C * (ω + (η + ε) + (η' + ε') + δ) := by
  by_cases hn : ∃ n : ℕ, sim = n * batch
  · obtain ⟨n, hn⟩ := hn
    obtain ⟨C, hC, h⟩ := batches_apart hb.le hK hlip n
    refine ⟨C, hC, fun G ω η ε η' ε' δ zero zero' y0 y0' solve solve' times times' rows rows' h1 h2 h3 h4 h5 h6
      hω hδ hrun hrun' hnear hnear' => ?_⟩
    obtain ⟨n1, ht, hr, hn1⟩ := C32_output_times hs hb hrun
    obtain ⟨n2, ht', hr', hn2⟩ := C32_output_times hs hb hrun'
    have hcancel : ∀ n' : ℕ, sim = n' * batch → n' = n := fun n' hn' => by
      have : (n' : ℚ) * batch = n * batch := by rw [← hn', ← hn]
      exact_mod_cast mul_right_cancel₀ hb.ne' this
    obtain rfl := hcancel _ hn1
    obtain rfl := hcancel _ hn2
    have hlen : rows.length = n2 := by rw [hr]; simp
    have hlen' : rows'.length = n2 := by rw [hr']; simp
    have hd : dist y0' y0 ≤ δ := (dist_pi_le_iff h6).2 fun i => by rw [Real.dist_eq]; exact hδ i
    refine ⟨by rw [ht, ht'], by rw [hlen, hlen'], fun k row row' hk hk' i => ?_⟩
    rw [hlen] at hnear
    rw [hlen'] at hnear'
    rw [hr] at hk
    rw [hr'] at hk'
    obtain ⟨hkn, hrow⟩ := List.getElem?_eq_some_iff.1 hk
    obtain ⟨_, hrow'⟩ := List.getElem?_eq_some_iff.1 hk'
    simp only [List.length_map, List.length_range] at hkn
    simp only [List.getElem_map, List.getElem_range] at hrow hrow'
    have g1 := h G ω η ε η' ε' y0 y0' solve solve' h1 h2 h3 h4 h5
      (fun s hs z hz => (dist_pi_le_iff h1).2 fun i => by rw [Real.dist_eq]; exact hω s hs z hz i)
      hnear hnear' (k + 1) (by omega)
    rw [hrow, hrow'] at g1
    rw [← Real.dist_eq]
    exact (dist_le_pi_dist _ _ i).trans (g1.trans (mul_le_mul_of_nonneg_left (by linarith) hC))
  · refine ⟨0, le_rfl, fun G ω η ε η' ε' δ zero zero' y0 y0' solve solve' times times' rows rows' _ _ _ _ _ _ _ _
      hrun _ _ _ => ?_⟩
    obtain ⟨n, -, -, h⟩ := C32_output_times hs hb hrun
    exact absurd ⟨n, h⟩ hn

/-- Exact solutions from non-negative states stay non-negative and, with totals that do not grow, bounded. -/
theorem Tame.batches_in (hF : Tame F) {c : ι → ι → ℝ} (hc0 : ∀ i j, 0 ≤ c i j) (hci : ∀ i, 0 < c i i)
    (hc : ∀ i t y, (∀ j, 0 ≤ y j) → ∑ j, c i j * F t y j ≤ 0) {batch : ℚ} (hb : 0 ≤ batch) {B : ℝ} {y0 : ι → ℝ}
    (hy0 : ∀ i, 0 ≤ y0 i) (hB : ∀ i, ∑ j, c i j * y0 j ≤ c i i * B)
    (hP : ∀ z : ι → ℝ, (∀ i, 0 ≤ z i) → (∀ i, z i ≤ B) → z ∈ P) {solve : (ι → ℝ) → ℚ → ι → ℝ} {n : ℕ}
    (hex : ExactBatches F solve batch y0 n) : NearBatchesIn P F 0 0 solve batch y0 n := by
  have hb' : (0 : ℝ) ≤ batch := by exact_mod_cast hb
  have hinv : ∀ u : ℝ → ι → ℝ, SolvesOn F u 0 batch →
      ((∀ i, 0 ≤ u 0 i) ∧ ∀ i, ∑ j, c i j * u 0 j ≤ c i i * B) → ∀ t ∈ Icc 0 (batch : ℝ),
        (∀ i, 0 ≤ u t i) ∧ ∀ i, ∑ j, c i j * u t j ≤ c i i * B := fun u hu h0 t ht => by
    have hn := hF.nonneg hu h0.1
    exact ⟨hn t ht, fun i =>
      (linear_le hu (c i) (fun t ht => hc i t _ (hn t (Ico_subset_Icc_self ht))) t ht).trans (h0.2 i)⟩
  have hall := batches_invariant hex (S := fun y => (∀ i, 0 ≤ y i) ∧ ∀ i, ∑ j, c i j * y j ≤ c i i * B) ⟨hy0, hB⟩
    fun u hu h0 => hinv u hu h0 _ ⟨hb', le_rfl⟩
  intro k hk
  obtain ⟨u, h1, hu, h4⟩ := hex k hk
  have hu' := hinv u hu (by rw [h1]; exact hall k hk.le)
  obtain ⟨h2, S, hS, h3⟩ := hu
  refine ⟨u, h1, ⟨h2, S, hS, fun t ht htS => ⟨_, h3 t ht htS, by rw [dist_self]⟩⟩, fun t ht => ?_, ?_⟩
  · obtain ⟨a1, a2⟩ := hu' t (Ico_subset_Icc_self ht)
    refine hP _ a1 fun i => ?_
    have a3 : c i i * u t i ≤ ∑ j, c i j * u t j :=
      Finset.single_le_sum (f := fun j => c i j * u t j) (fun j _ => mul_nonneg (hc0 i j) (a1 j)) (Finset.mem_univ i)
    exact le_of_mul_le_mul_left (a3.trans (a2 i)) (hci i)
  · rw [← h4, dist_self]

end PyBox
