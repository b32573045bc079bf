import Verif.Sim.Tame
import Verif.Props.Split

/-!
# Exact operator-split runs

What the rows of an operator-split run inherit from exact solutions of the two systems.
-/

namespace PyBox

open Set Spec

namespace Spec

/-- Every batch of an operator-split run ends where a solution ends that starts, at solver time 0, where the
batch before ended: a solution of `u' = Fg t u` for the gas-phase batches, of `u' = Fp t u` for the
others. -/
def ExactSplit {E : Type*} [NormedAddCommGroup E] [NormedSpace ℝ E] (Fg Fp : ℝ → E → E)
    (solveGas solvePart : E → ℚ → E) (batch gasTime partTime : ℚ) (y0 : E) (n : ℕ) : Prop :=
  ∀ k < n, ∃ u : ℝ → E, u 0 = afterSplit solveGas solvePart batch gasTime partTime y0 k ∧
    SolvesOn (if k % 2 = 0 then Fg else Fp) u 0 (splitDuration batch gasTime partTime k : ℚ) ∧
    u (splitDuration batch gasTime partTime k : ℚ)
      = afterSplit solveGas solvePart batch gasTime partTime y0 (k + 1)

end Spec

theorem splitDuration_pos {batch gasTime partTime : ℚ} (hb : 0 < batch) (hg : 0 < gasTime)
    (hp : 0 < partTime) (k : ℕ) : 0 < splitDuration batch gasTime partTime k := by
  cases k with
  | zero => exact hb
  | succ k => simp only [splitDuration]; split <;> assumption

/-- What a completed run returns. -/
theorem split_output {Y : Type*} {solveGas solvePart : Y → ℚ → Y} {zero y0 : Y}
    {sim batch gasTime partTime : ℚ} (hs : 0 < sim) (hb : 0 < batch) (hg : 0 < gasTime) (hp : 0 < partTime)
    {times : List ℚ} {rows : List Y}
    (hrun : runSplit id solveGas solvePart zero y0 sim batch gasTime partTime = .ok (times, rows)) :
    ∃ k ≤ ⌊sim / batch⌋.toNat, (∀ i < k, splitClock batch gasTime partTime i < sim) ∧
      sim ≤ splitClock batch gasTime partTime k ∧
      times = (List.range k).map (fun j => splitClock batch gasTime partTime (j + 1)) ∧
      rows = (List.range k).map (fun j => afterSplit solveGas solvePart batch gasTime partTime y0 (j + 1)) ++
        List.replicate (⌊sim / batch⌋.toNat - k) zero := by
  obtain ⟨h1, h2⟩ := C49_outcome solveGas solvePart zero y0 hs hb hg hp
  by_cases hex : ∃ k, k ≤ ⌊sim / batch⌋.toNat ∧ sim ≤ splitClock batch gasTime partTime k
  · classical
    obtain ⟨hk, hc⟩ := Nat.find_spec hex
    have hmin : ∀ i < Nat.find hex, splitClock batch gasTime partTime i < sim := by
      intro i hi
      have := Nat.find_min hex hi
      by_contra hcon
      exact this ⟨hi.le.trans hk, not_lt.1 hcon⟩
    have h3 := h1 _ hk hmin hc
    rw [hrun] at h3
    cases h3
    exact ⟨_, hk, hmin, hc, rfl, rfl⟩
  · rw [h2 fun k hk => not_le.1 fun hc => hex ⟨k, hk, hc⟩] at hrun
    cases hrun

section Rows

variable {E : Type*} [NormedAddCommGroup E] [NormedSpace ℝ E] {Fg Fp : ℝ → E → E}
  {solveGas solvePart solveGas' solvePart' : E → ℚ → E} {sim batch gasTime partTime : ℚ} {zero y0 : E}
  {times times' : List ℚ} {rows rows' : List E} {n : ℕ}

theorem split_states_invariant (hb : 0 < batch) (hg : 0 < gasTime) (hp : 0 < partTime)
    (hex : ExactSplit Fg Fp solveGas solvePart batch gasTime partTime y0 n) {S : E → Prop} (h0 : S y0)
    (hgas : ∀ (u : ℝ → E) (d : ℝ), 0 ≤ d → SolvesOn Fg u 0 d → S (u 0) → S (u d))
    (hpart : ∀ (u : ℝ → E) (d : ℝ), 0 ≤ d → SolvesOn Fp u 0 d → S (u 0) → S (u d)) :
    ∀ k ≤ n, S (afterSplit solveGas solvePart batch gasTime partTime y0 k) := by
  intro k
  induction k with
  | zero => intro _; exact h0
  | succ k ih =>
    intro hk
    obtain ⟨u, h1, h2, h3⟩ := hex k (by omega)
    have hd : (0 : ℝ) ≤ (splitDuration batch gasTime partTime k : ℚ) := by
      exact_mod_cast (splitDuration_pos hb hg hp k).le
    have hS : S (u 0) := by rw [h1]; exact ih (by omega)
    rw [← h3]
    split at h2
    · exact hgas u _ hd h2 hS
    · exact hpart u _ hd h2 hS

/-- What holds at the start and is kept by both systems holds in all rows that go with a reported time. -/
theorem split_rows_invariant (hs : 0 < sim) (hb : 0 < batch) (hg : 0 < gasTime) (hp : 0 < partTime)
    (hrun : runSplit id solveGas solvePart zero y0 sim batch gasTime partTime = .ok (times, rows))
    (hex : ExactSplit Fg Fp solveGas solvePart batch gasTime partTime y0 times.length) {S : E → Prop}
    (h0 : S y0)
    (hgas : ∀ (u : ℝ → E) (d : ℝ), 0 ≤ d → SolvesOn Fg u 0 d → S (u 0) → S (u d))
    (hpart : ∀ (u : ℝ → E) (d : ℝ), 0 ≤ d → SolvesOn Fp u 0 d → S (u 0) → S (u d)) :
    ∀ row ∈ rows.take times.length, S row := by
  obtain ⟨k, -, -, -, ht, hr⟩ := split_output hs hb hg hp hrun
  have hlen : times.length = k := by rw [ht]; simp
  rw [hlen] at hex ⊢
  rw [hr, List.take_left' (by simp)]
  intro row hrow
  obtain ⟨j, hj, rfl⟩ := List.mem_map.1 hrow
  exact split_states_invariant hb hg hp hex h0 hgas hpart (j + 1) (List.mem_range.1 hj)

/-- Successive rows are joined by solutions. -/
theorem split_rows_step (hs : 0 < sim) (hb : 0 < batch) (hg : 0 < gasTime) (hp : 0 < partTime)
    (hrun : runSplit id solveGas solvePart zero y0 sim batch gasTime partTime = .ok (times, rows))
    (hex : ExactSplit Fg Fp solveGas solvePart batch gasTime partTime y0 times.length) {k : ℕ} {a b : E}
    (hk : k < times.length) (ha : (y0 :: rows)[k]? = some a) (hb' : rows[k]? = some b) :
    ∃ (u : ℝ → E) (d : ℝ), 0 ≤ d ∧ u 0 = a ∧ u d = b ∧ SolvesOn (if k % 2 = 0 then Fg else Fp) u 0 d := by
  obtain ⟨K, -, -, -, ht, hr⟩ := split_output hs hb hg hp hrun
  have hlen : times.length = K := by rw [ht]; simp
  rw [hlen] at hk
  have hrow : ∀ j < K, rows[j]? = some (afterSplit solveGas solvePart batch gasTime partTime y0 (j + 1)) := by
    intro j hj
    rw [hr, List.getElem?_append_left (by simpa using hj), List.getElem?_map, List.getElem?_range hj]
    rfl
  obtain ⟨u, h1, h2, h3⟩ := hex k (by omega)
  refine ⟨u, _, ?_, ?_, ?_, h2⟩
  · exact_mod_cast (splitDuration_pos hb hg hp k).le
  · rw [h1]
    cases k with
    | zero => exact Option.some.inj ha
    | succ k =>
      rw [List.getElem?_cons_succ, hrow k (by omega)] at ha
      exact Option.some.inj ha
  · rw [h3]
    rw [hrow k hk] at hb'
    exact Option.some.inj hb'

/-- A quantity that grows along no solution from a good state does not grow from row to row. -/
theorem split_rows_decreasing (hs : 0 < sim) (hb : 0 < batch) (hg : 0 < gasTime) (hp : 0 < partTime)
    (hrun : runSplit id solveGas solvePart zero y0 sim batch gasTime partTime = .ok (times, rows))
    (hex : ExactSplit Fg Fp solveGas solvePart batch gasTime partTime y0 times.length) {S : E → Prop}
    {V : E → ℝ} (h0 : S y0)
    (hgas : ∀ (u : ℝ → E) (d : ℝ), 0 ≤ d → SolvesOn Fg u 0 d → S (u 0) → S (u d) ∧ V (u d) ≤ V (u 0))
    (hpart : ∀ (u : ℝ → E) (d : ℝ), 0 ≤ d → SolvesOn Fp u 0 d → S (u 0) → S (u d) ∧ V (u d) ≤ V (u 0)) :
    (y0 :: rows.take times.length).Pairwise fun a b => V b ≤ V a := by
  obtain ⟨k, -, -, -, ht, hr⟩ := split_output hs hb hg hp hrun
  have hlen : times.length = k := by rw [ht]; simp
  rw [hlen] at hex ⊢
  have hS := split_states_invariant hb hg hp hex h0 (fun u d hd hu hu0 => (hgas u d hd hu hu0).1)
    (fun u d hd hu hu0 => (hpart u d hd hu hu0).1)
  have hV : ∀ j < k, V (afterSplit solveGas solvePart batch gasTime partTime y0 (j + 1))
      ≤ V (afterSplit solveGas solvePart batch gasTime partTime y0 j) := by
    intro j hj
    obtain ⟨u, h1, h2, h3⟩ := hex j hj
    have hd : (0 : ℝ) ≤ (splitDuration batch gasTime partTime j : ℚ) := by
      exact_mod_cast (splitDuration_pos hb hg hp j).le
    have hSu : S (u 0) := by rw [h1]; exact hS j hj.le
    rw [← h3, ← h1]
    split at h2
    · exact (hgas u _ hd h2 hSu).2
    · exact (hpart u _ hd h2 hSu).2
  have hcons : y0 :: rows.take k
      = (List.range (k + 1)).map (afterSplit solveGas solvePart batch gasTime partTime y0) := by
    rw [hr, List.take_left' (by simp), List.range_succ_eq_map, List.map_cons, List.map_map]
    rfl
  rw [hcons, List.pairwise_map, List.pairwise_iff_getElem]
  intro i j hi hj hij
  rw [List.getElem_range, List.getElem_range]
  rw [List.length_range] at hj
  obtain ⟨d, rfl⟩ := Nat.exists_eq_add_of_le hij.le
  clear hij hi
  induction d with
  | zero => exact le_rfl
  | succ d ih => exact (hV (i + d) (by omega)).trans (ih (by omega))

/-- If solutions from good states are unique and lead to good states, all exact runs report the same. -/
theorem split_rows_unique (hs : 0 < sim) (hb : 0 < batch) (hg : 0 < gasTime) (hp : 0 < partTime)
    (hrun : runSplit id solveGas solvePart zero y0 sim batch gasTime partTime = .ok (times, rows))
    (hrun' : runSplit id solveGas' solvePart' zero y0 sim batch gasTime partTime = .ok (times', rows'))
    (hex : ExactSplit Fg Fp solveGas solvePart batch gasTime partTime y0 times.length)
    (hex' : ExactSplit Fg Fp solveGas' solvePart' batch gasTime partTime y0 times'.length) {S : E → Prop}
    (h0 : S y0)
    (hgas : ∀ (u v : ℝ → E) (d : ℝ), 0 ≤ d → SolvesOn Fg u 0 d → SolvesOn Fg v 0 d → u 0 = v 0 → S (u 0) →
      S (u d) ∧ u d = v d)
    (hpart : ∀ (u v : ℝ → E) (d : ℝ), 0 ≤ d → SolvesOn Fp u 0 d → SolvesOn Fp v 0 d → u 0 = v 0 → S (u 0) →
      S (u d) ∧ u d = v d) : times = times' ∧ rows = rows' := by
  obtain ⟨k, -, hk2, hk3, ht, hr⟩ := split_output hs hb hg hp hrun
  obtain ⟨k', -, hk2', hk3', ht', hr'⟩ := split_output hs hb hg hp hrun'
  have hkk : k = k' := by
    rcases Nat.lt_trichotomy k k' with h | h | h
    · exact absurd (hk2' k h) (not_lt.2 hk3)
    · exact h
    · exact absurd (hk2 k' h) (not_lt.2 hk3')
  subst hkk
  have hlen : times.length = k := by rw [ht]; simp
  have hlen' : times'.length = k := by rw [ht']; simp
  rw [hlen] at hex
  rw [hlen'] at hex'
  have hsame : ∀ j ≤ k, afterSplit solveGas solvePart batch gasTime partTime y0 j
        = afterSplit solveGas' solvePart' batch gasTime partTime y0 j ∧
      S (afterSplit solveGas solvePart batch gasTime partTime y0 j) := by
    intro j
    induction j with
    | zero => exact fun _ => ⟨rfl, h0⟩
    | succ j ih =>
      intro hj
      obtain ⟨e1, n1⟩ := ih (by omega)
      obtain ⟨u, u1, u2, u3⟩ := hex j (by omega)
      obtain ⟨v, v1, v2, v3⟩ := hex' j (by omega)
      have hd : (0 : ℝ) ≤ (splitDuration batch gasTime partTime j : ℚ) := by
        exact_mod_cast (splitDuration_pos hb hg hp j).le
      have huv : u 0 = v 0 := by rw [u1, v1, e1]
      have hSu : S (u 0) := by rw [u1]; exact n1
      rw [← u3, ← v3]
      by_cases hm : j % 2 = 0
      · rw [if_pos hm] at u2 v2
        exact (hgas u v _ hd u2 v2 huv hSu).symm
      · rw [if_neg hm] at u2 v2
        exact (hpart u v _ hd u2 v2 huv hSu).symm
  refine ⟨by rw [ht, ht'], ?_⟩
  rw [hr, hr']
  refine congrArg (· ++ _) (List.map_congr_left fun j hj => ?_)
  have := List.mem_range.1 hj
  exact (hsame (j + 1) (by omega)).1

/-- If good states have solutions for any time and these lead to good states, exact solvers exist. -/
theorem split_exact_solvers {S : E → Prop}
    (hgas : ∀ y0, S y0 → ∀ d : ℝ, 0 ≤ d → ∃ u : ℝ → E, u 0 = y0 ∧ SolvesOn Fg u 0 d ∧ S (u d))
    (hpart : ∀ y0, S y0 → ∀ d : ℝ, 0 ≤ d → ∃ u : ℝ → E, u 0 = y0 ∧ SolvesOn Fp u 0 d ∧ S (u d)) :
    ∃ solveGas solvePart : E → ℚ → E, ∀ (batch gasTime partTime : ℚ), 0 < batch → 0 < gasTime →
      0 < partTime → ∀ y0, S y0 → ∀ n, ExactSplit Fg Fp solveGas solvePart batch gasTime partTime y0 n := by
  classical
  have choice : ∀ F : ℝ → E → E,
      (∀ y0, S y0 → ∀ d : ℝ, 0 ≤ d → ∃ u : ℝ → E, u 0 = y0 ∧ SolvesOn F u 0 d ∧ S (u d)) →
      ∃ u : E → ℚ → ℝ → E, ∀ y0 (d : ℚ), S y0 → 0 < d →
        u y0 d 0 = y0 ∧ SolvesOn F (u y0 d) 0 d ∧ S (u y0 d d) := by
    intro F hF
    have : ∀ (y0 : E) (d : ℚ), ∃ u : ℝ → E, S y0 → 0 < d →
        u 0 = y0 ∧ SolvesOn F u 0 d ∧ S (u d) := by
      intro y0 d
      by_cases h : S y0 ∧ 0 < d
      · obtain ⟨u, hu⟩ := hF y0 h.1 d (by exact_mod_cast h.2.le)
        exact ⟨u, fun _ _ => hu⟩
      · exact ⟨fun _ => y0, fun h1 h2 => absurd ⟨h1, h2⟩ h⟩
    choose u hu using this
    exact ⟨u, hu⟩
  obtain ⟨ug, hug⟩ := choice Fg hgas
  obtain ⟨up, hup⟩ := choice Fp hpart
  refine ⟨fun y d => ug y d d, fun y d => up y d d, fun batch gasTime partTime hb hg hp y0 hy0 n => ?_⟩
  have hS : ∀ k, S (afterSplit (fun y d => ug y d d) (fun y d => up y d d) batch gasTime partTime y0 k) := by
    intro k
    induction k with
    | zero => exact hy0
    | succ k ih =>
      have hd := splitDuration_pos hb hg hp k
      rw [afterSplit]
      split
      · exact (hug _ _ ih hd).2.2
      · exact (hup _ _ ih hd).2.2
  intro k _
  have hd := splitDuration_pos hb hg hp k
  by_cases hm : k % 2 = 0
  · obtain ⟨h1, h2, -⟩ := hug _ _ (hS k) hd
    refine ⟨_, h1, by rw [if_pos hm]; exact h2, ?_⟩
    rw [afterSplit, if_pos hm]
  · obtain ⟨h1, h2, -⟩ := hup _ _ (hS k) hd
    refine ⟨_, h1, by rw [if_neg hm]; exact h2, ?_⟩
    rw [afterSplit, if_neg hm]

end Rows

/-! ## Pairs of tame systems -/

section Tame

variable {ι : Type} [Fintype ι] {Fg Fp : ℝ → (ι → ℝ) → ι → ℝ}
  {solveGas solvePart solveGas' solvePart' : (ι → ℝ) → ℚ → ι → ℝ} {sim batch gasTime partTime : ℚ}
  {zero y0 : ι → ℝ} {times times' : List ℚ} {rows rows' : List (ι → ℝ)}

/-- A linear quantity that does not change along the derivative does not change along solutions. -/
theorem linear_const {F : ℝ → (ι → ℝ) → ι → ℝ} (c : ι → ℝ) (hc : ∀ t y, ∑ j, c j * F t y j = 0)
    {u : ℝ → ι → ℝ} {d : ℝ} (hd : 0 ≤ d) (hu : SolvesOn F u 0 d) :
    ∑ j, c j * u d j = ∑ j, c j * u 0 j := by
  refine le_antisymm (linear_le hu c (fun t _ => (hc t _).le) _ ⟨hd, le_rfl⟩) ?_
  have := linear_le hu (fun j => - c j) (fun t _ => by
    simp only [neg_mul, Finset.sum_neg_distrib, hc, neg_zero]; exact le_rfl) _ ⟨hd, le_rfl⟩
  simp only [neg_mul, Finset.sum_neg_distrib] at this
  linarith

/-- An entry whose derivative is 0 does not change. -/
theorem entry_const {F : ℝ → (ι → ℝ) → ι → ℝ} (i : ι) (hi : ∀ t y, F t y i = 0) {u : ℝ → ι → ℝ} {d : ℝ}
    (hd : 0 ≤ d) (hu : SolvesOn F u 0 d) : u d i = u 0 i := by
  classical
  have := linear_const (fun j => if j = i then 1 else 0) (fun t y => by simp [hi]) hd hu
  simpa using this

theorem Tame.split_nonneg (hFg : Tame Fg) (hFp : Tame Fp) (hs : 0 < sim) (hb : 0 < batch) (hg : 0 < gasTime)
    (hp : 0 < partTime) (hy0 : ∀ i, 0 ≤ y0 i)
    (hrun : runSplit id solveGas solvePart zero y0 sim batch gasTime partTime = .ok (times, rows))
    (hex : ExactSplit Fg Fp solveGas solvePart batch gasTime partTime y0 times.length) :
    ∀ row ∈ rows.take times.length, ∀ i, 0 ≤ row i :=
  split_rows_invariant hs hb hg hp hrun hex (S := fun y => ∀ i, 0 ≤ y i) hy0
    (fun _ _ hd hu h0 => hFg.nonneg hu h0 _ ⟨hd, le_rfl⟩)
    (fun _ _ hd hu h0 => hFp.nonneg hu h0 _ ⟨hd, le_rfl⟩)

theorem Tame.split_total (hFg : Tame Fg) (hFp : Tame Fp) (c : ι → ℝ)
    (hcg : ∀ t y, (∀ j, 0 ≤ y j) → ∑ j, c j * Fg t y j ≤ 0)
    (hcp : ∀ t y, (∀ j, 0 ≤ y j) → ∑ j, c j * Fp t y j ≤ 0)
    (hs : 0 < sim) (hb : 0 < batch) (hg : 0 < gasTime)
    (hp : 0 < partTime) (hy0 : ∀ i, 0 ≤ y0 i)
    (hrun : runSplit id solveGas solvePart zero y0 sim batch gasTime partTime = .ok (times, rows))
    (hex : ExactSplit Fg Fp solveGas solvePart batch gasTime partTime y0 times.length) :
    (y0 :: rows.take times.length).Pairwise fun a b => ∑ j, c j * b j ≤ ∑ j, c j * a j := by
  have key : ∀ F : ℝ → (ι → ℝ) → ι → ℝ, Tame F →
      (∀ t y, (∀ j, 0 ≤ y j) → ∑ j, c j * F t y j ≤ 0) → ∀ (u : ℝ → ι → ℝ) (d : ℝ), 0 ≤ d →
      SolvesOn F u 0 d → (∀ i, 0 ≤ u 0 i) → (∀ i, 0 ≤ u d i) ∧ ∑ j, c j * u d j ≤ ∑ j, c j * u 0 j := by
    intro F hF hc u d hd hu h0
    have hn := hF.nonneg hu h0
    exact ⟨hn _ ⟨hd, le_rfl⟩,
      linear_le hu c (fun t ht => hc t _ (hn t (Ico_subset_Icc_self ht))) _ ⟨hd, le_rfl⟩⟩
  exact split_rows_decreasing hs hb hg hp hrun hex (S := fun y => ∀ i, 0 ≤ y i)
    (V := fun y => ∑ j, c j * y j) hy0 (key Fg hFg hcg) (key Fp hFp hcp)

/-- A total that changes in neither system is the same in all rows. -/
theorem split_constant (c : ι → ℝ) (hcg : ∀ t y, ∑ j, c j * Fg t y j = 0)
    (hcp : ∀ t y, ∑ j, c j * Fp t y j = 0) (hs : 0 < sim) (hb : 0 < batch) (hg : 0 < gasTime)
    (hp : 0 < partTime)
    (hrun : runSplit id solveGas solvePart zero y0 sim batch gasTime partTime = .ok (times, rows))
    (hex : ExactSplit Fg Fp solveGas solvePart batch gasTime partTime y0 times.length) :
    ∀ row ∈ rows.take times.length, ∑ j, c j * row j = ∑ j, c j * y0 j :=
  split_rows_invariant hs hb hg hp hrun hex (S := fun y => ∑ j, c j * y j = ∑ j, c j * y0 j) rfl
    (fun _ _ hd hu h0 => (linear_const c hcg hd hu).trans h0)
    (fun _ _ hd hu h0 => (linear_const c hcp hd hu).trans h0)

theorem Tame.split_exact_solvers (hFg : Tame Fg) (hFp : Tame Fp) (hBg : BoxPieces Fg) (hBp : BoxPieces Fp)
    (hDg : Dissipative Fg) (hDp : Dissipative Fp) :
    ∃ solveGas solvePart : (ι → ℝ) → ℚ → ι → ℝ, ∀ (batch gasTime partTime : ℚ), 0 < batch → 0 < gasTime →
      0 < partTime → ∀ y0, (∀ i, 0 ≤ y0 i) → ∀ n,
        ExactSplit Fg Fp solveGas solvePart batch gasTime partTime y0 n := by
  have key : ∀ F : ℝ → (ι → ℝ) → ι → ℝ, Tame F → BoxPieces F → Dissipative F → ∀ y0 : ι → ℝ,
      (∀ i, 0 ≤ y0 i) → ∀ d : ℝ, 0 ≤ d → ∃ u : ℝ → ι → ℝ, u 0 = y0 ∧ SolvesOn F u 0 d ∧ ∀ i, 0 ≤ u d i := by
    intro F hF hB hD y0 hy0 d hd
    obtain ⟨u, h1, h2⟩ := hF.solution_pieces hB hD hy0 hd
    exact ⟨u, h1, h2, hF.nonneg h2 (by rw [h1]; exact hy0) _ ⟨hd, le_rfl⟩⟩
  exact PyBox.split_exact_solvers (key Fg hFg hBg hDg) (key Fp hFp hBp hDp)

theorem Tame.split_unique (hFg : Tame Fg) (hFp : Tame Fp) (hBg : BoxPieces Fg) (hBp : BoxPieces Fp)
    (hs : 0 < sim) (hb : 0 < batch) (hg : 0 < gasTime) (hp : 0 < partTime) (hy0 : ∀ i, 0 ≤ y0 i)
    (hrun : runSplit id solveGas solvePart zero y0 sim batch gasTime partTime = .ok (times, rows))
    (hrun' : runSplit id solveGas' solvePart' zero y0 sim batch gasTime partTime = .ok (times', rows'))
    (hex : ExactSplit Fg Fp solveGas solvePart batch gasTime partTime y0 times.length)
    (hex' : ExactSplit Fg Fp solveGas' solvePart' batch gasTime partTime y0 times'.length) :
    times = times' ∧ rows = rows' := by
  have key : ∀ F : ℝ → (ι → ℝ) → ι → ℝ, Tame F → BoxPieces F → ∀ (u v : ℝ → ι → ℝ) (d : ℝ), 0 ≤ d →
      SolvesOn F u 0 d → SolvesOn F v 0 d → u 0 = v 0 → (∀ i, 0 ≤ u 0 i) → (∀ i, 0 ≤ u d i) ∧ u d = v d := by
    intro F hF hB u v d hd hu hv huv h0
    have hlip : ∀ R, 0 ≤ R → ∃ K, ∀ t ∈ Icc (0 : ℝ) d, LipschitzOnWith K (F t) (box R) := by
      intro R hR
      obtain ⟨K, M, hKM⟩ := SetLip.components (A := Icc (0 : ℝ) d) (B := box R) (hB.lip d R hR)
      exact ⟨K, fun t ht => (hKM t ht).1⟩
    have hun := hF.nonneg hu h0
    exact ⟨hun _ ⟨hd, le_rfl⟩, PyBox.SolvesOn.unique_nonneg hu hv hun
      (hF.nonneg hv (by rw [← huv]; exact h0)) hlip huv ⟨hd, le_rfl⟩⟩
  exact split_rows_unique hs hb hg hp hrun hrun' hex hex' (S := fun y => ∀ i, 0 ≤ y i) hy0
    (key Fg hFg hBg) (key Fp hFp hBp)

end Tame

end PyBox
