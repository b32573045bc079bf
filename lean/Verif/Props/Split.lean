import Verif.Props.Sim

/-!
# C49: the operator-split loop
-/

namespace PyBox

namespace Spec

/-- The length of batch `k` (from 0): the first has the length used to allocate the rows, then
partitioning and gas phase alternate. -/
def splitDuration (batch gasTime partTime : ℚ) : Nat → ℚ
  | 0 => batch
  | k + 1 => if k % 2 = 0 then partTime else gasTime

/-- The time after `k` batches. -/
def splitClock (batch gasTime partTime : ℚ) : Nat → ℚ
  | 0 => 0
  | k + 1 => splitClock batch gasTime partTime k + splitDuration batch gasTime partTime k

/-- The state after `k` batches: batches 0, 2, 4, ... are gas phase, the others partitioning. -/
def afterSplit {Y : Type*} (solveGas solvePart : Y → ℚ → Y) (batch gasTime partTime : ℚ) (y0 : Y) :
    Nat → Y
  | 0 => y0
  | k + 1 => (if k % 2 = 0 then solveGas else solvePart)
      (afterSplit solveGas solvePart batch gasTime partTime y0 k)
      (splitDuration batch gasTime partTime k)

end Spec

open Spec

section loop

variable {Y : Type*} (solveGas solvePart : Y → ℚ → Y) (sim batch gasTime partTime : ℚ) (zero y0 : Y)
  (n : Nat)

/-- The loop variables after `k` batches, with `n` rows. -/
def splitState (k : Nat) : SplitState Y :=
  { total := splitClock batch gasTime partTime k, step := k,
    y0 := afterSplit solveGas solvePart batch gasTime partTime y0 (k - 1),
    last := afterSplit solveGas solvePart batch gasTime partTime y0 k,
    gasStep := decide (k % 2 = 1),
    batch := splitDuration batch gasTime partTime (k - 1),
    times := (List.range k).map (fun j => splitClock batch gasTime partTime (j + 1)),
    rows := (List.range k).map (fun j => afterSplit solveGas solvePart batch gasTime partTime y0 (j + 1)) ++
      List.replicate (n - k) zero }

theorem splitState_rows (k : Nat) (hk : k ≤ n) :
    (splitState solveGas solvePart batch gasTime partTime zero y0 n k).rows.length = n := by
  simp only [splitState, List.length_append, List.length_map, List.length_range, List.length_replicate]
  omega

theorem split_setup (k : Nat) (h0 : k ≠ 0 → splitClock batch gasTime partTime k ≠ 0) :
    splitSetup solveGas solvePart gasTime partTime
      (splitState solveGas solvePart batch gasTime partTime zero y0 n k) =
    (if k % 2 = 0 then solveGas else solvePart, afterSplit solveGas solvePart batch gasTime partTime y0 k,
      splitDuration batch gasTime partTime k, decide ((k + 1) % 2 = 1)) := by
  unfold splitSetup
  cases k with
  | zero => simp [splitState, splitClock, afterSplit, splitDuration]
  | succ k =>
    rw [if_neg (show ¬ (splitState solveGas solvePart batch gasTime partTime zero y0 n (k + 1)).total = 0
      from h0 (Nat.succ_ne_zero k))]
    simp only [splitState, decide_eq_true_eq, splitDuration]
    rcases Nat.mod_two_eq_zero_or_one k with hk | hk
    · have h1 : (k + 1) % 2 = 1 := by omega
      have h2 : (k + 1 + 1) % 2 = 0 := by omega
      simp [h1, h2, hk]
    · have h1 : (k + 1) % 2 = 0 := by omega
      have h2 : (k + 1 + 1) % 2 = 1 := by omega
      simp [h1, h2, hk]

theorem split_step (k : Nat) (hk : k < n) (ht : splitClock batch gasTime partTime k < sim)
    (h0 : k ≠ 0 → splitClock batch gasTime partTime k ≠ 0) :
    splitLoop id solveGas solvePart sim gasTime partTime
        (splitState solveGas solvePart batch gasTime partTime zero y0 n k) =
      splitLoop id solveGas solvePart sim gasTime partTime
        (splitState solveGas solvePart batch gasTime partTime zero y0 n (k + 1)) := by
  have hrow := splitState_rows solveGas solvePart batch gasTime partTime zero y0 n k hk.le
  conv_lhs => rw [splitLoop]
  rw [if_pos (show (splitState solveGas solvePart batch gasTime partTime zero y0 n k).total < sim from ht),
    split_setup solveGas solvePart batch gasTime partTime zero y0 n k h0]
  simp only
  rw [dif_pos (by rw [hrow]; exact hk)]
  congr 1
  simp only [splitState, SplitState.mk.injEq, splitClock, id, Nat.add_sub_cancel, true_and]
  have hs : (if k % 2 = 0 then solveGas else solvePart)
      (afterSplit solveGas solvePart batch gasTime partTime y0 k) (splitDuration batch gasTime partTime k) =
      afterSplit solveGas solvePart batch gasTime partTime y0 (k + 1) := rfl
  rw [hs]
  refine ⟨rfl, ?_, ?_⟩
  · rw [List.range_succ, List.map_append]
    rfl
  · rw [List.range_succ, List.map_append, List.append_assoc]
    rw [List.set_append_right _ _ (by simp)]
    simp only [List.length_map, List.length_range, Nat.sub_self, List.map_cons, List.map_nil]
    congr 1
    have : n - k = (n - (k + 1)) + 1 := by omega
    rw [this, List.replicate_succ]
    rfl

theorem split_run (j : Nat) : ∀ k, k + j ≤ n →
    (∀ i, k ≤ i → i < k + j → splitClock batch gasTime partTime i < sim) →
    (∀ i, i ≠ 0 → i < k + j → splitClock batch gasTime partTime i ≠ 0) →
    splitLoop id solveGas solvePart sim gasTime partTime
        (splitState solveGas solvePart batch gasTime partTime zero y0 n k) =
      splitLoop id solveGas solvePart sim gasTime partTime
        (splitState solveGas solvePart batch gasTime partTime zero y0 n (k + j)) := by
  induction j with
  | zero => intro k _ _ _; rfl
  | succ j ih =>
    intro k h1 h2 h3
    rw [split_step solveGas solvePart sim batch gasTime partTime zero y0 n k (by omega)
      (h2 k le_rfl (by omega)) (fun h => h3 k h (by omega)), ih (k + 1) (by omega)
      (fun i hi hi' => h2 i (by omega) (by omega)) (fun i hi hi' => h3 i hi (by omega))]
    congr 2
    omega

theorem split_stop (k : Nat) (ht : sim ≤ splitClock batch gasTime partTime k) :
    splitLoop id solveGas solvePart sim gasTime partTime
        (splitState solveGas solvePart batch gasTime partTime zero y0 n k) =
      .ok (splitState solveGas solvePart batch gasTime partTime zero y0 n k) := by
  rw [splitLoop, if_neg (show ¬ (splitState solveGas solvePart batch gasTime partTime zero y0 n k).total < sim
    from not_lt.2 ht)]

theorem split_overflow (ht : splitClock batch gasTime partTime n < sim) :
    splitLoop id solveGas solvePart sim gasTime partTime
        (splitState solveGas solvePart batch gasTime partTime zero y0 n n) = .error .index := by
  rw [splitLoop, if_pos (show (splitState solveGas solvePart batch gasTime partTime zero y0 n n).total < sim
    from ht)]
  simp only
  rw [dif_neg]
  rw [splitState_rows solveGas solvePart batch gasTime partTime zero y0 n n le_rfl]
  exact lt_irrefl _

end loop

theorem splitClock_pos {batch gasTime partTime : ℚ} (hb : 0 < batch) (hg : 0 < gasTime)
    (hp : 0 < partTime) : ∀ k, k ≠ 0 → 0 < splitClock batch gasTime partTime k := by
  have hd : ∀ k, 0 < splitDuration batch gasTime partTime k := by
    intro k
    cases k with
    | zero => exact hb
    | succ k => simp only [splitDuration]; split <;> assumption
  have : ∀ k, 0 ≤ splitClock batch gasTime partTime k := by
    intro k
    induction k with
    | zero => exact le_rfl
    | succ k ih => exact add_nonneg ih (hd k).le
  intro k hk
  cases k with
  | zero => exact absurd rfl hk
  | succ k => exact add_pos_of_nonneg_of_pos (this k) (hd k)

theorem splitRun_eq {Y : Type*} (solveGas solvePart : Y → ℚ → Y) (zero y0 : Y)
    {sim batch gasTime partTime : ℚ} (hs : 0 < sim) (hb : 0 < batch) :
    runSplit id solveGas solvePart zero y0 sim batch gasTime partTime =
      match splitLoop id solveGas solvePart sim gasTime partTime
        (splitState solveGas solvePart batch gasTime partTime zero y0 ⌊sim / batch⌋.toNat 0) with
      | .error e => .error e
      | .ok s => .ok (s.times, s.rows) := by
  obtain ⟨h1, h2⟩ := rows_of_nonneg (div_pos hs hb).le
  unfold runSplit
  rw [if_neg hb.ne']
  simp only [id]
  rw [if_neg h1, h2]
  rfl

/-- What the operator-split driver returns, for any lengths: if the alternating batches reach the simulated
time within the allocated rows it reports the clock and the alternating states, otherwise it raises an
index error. -/
theorem C49_outcome {Y : Type*} (solveGas solvePart : Y → ℚ → Y) (zero y0 : Y)
    {sim batch gasTime partTime : ℚ} (hs : 0 < sim) (hb : 0 < batch) (hg : 0 < gasTime)
    (hp : 0 < partTime) :
    (∀ k, k ≤ ⌊sim / batch⌋.toNat → (∀ i < k, splitClock batch gasTime partTime i < sim) →
      sim ≤ splitClock batch gasTime partTime k →
      runSplit id solveGas solvePart zero y0 sim batch gasTime partTime =
        .ok ((List.range k).map (fun j => splitClock batch gasTime partTime (j + 1)),
          (List.range k).map (fun j => afterSplit solveGas solvePart batch gasTime partTime y0 (j + 1)) ++
            List.replicate (⌊sim / batch⌋.toNat - k) zero)) ∧
    ((∀ k, k ≤ ⌊sim / batch⌋.toNat → splitClock batch gasTime partTime k < sim) →
      runSplit id solveGas solvePart zero y0 sim batch gasTime partTime = .error .index) := by
  have h0 := splitClock_pos hb hg hp
  constructor
  · intro k hk h1 h2
    rw [splitRun_eq solveGas solvePart zero y0 hs hb,
      split_run solveGas solvePart sim batch gasTime partTime zero y0 _ k 0 (by omega)
      (fun i _ hi => h1 i (by omega)) (fun i hi _ => (h0 i hi).ne'), Nat.zero_add,
      split_stop solveGas solvePart sim batch gasTime partTime zero y0 _ k h2]
    rfl
  · intro h1
    rw [splitRun_eq solveGas solvePart zero y0 hs hb,
      split_run solveGas solvePart sim batch gasTime partTime zero y0 _ ⌊sim / batch⌋.toNat 0 (by omega)
      (fun i _ hi => h1 i (by omega)) (fun i hi _ => (h0 i hi).ne'), Nat.zero_add,
      split_overflow solveGas solvePart sim batch gasTime partTime zero y0 _ (h1 _ le_rfl)]

/-- C49 as stated. -/
def C49_Statement : Prop := ∀ (sim batch gasTime partTime : ℚ), 0 < sim → 0 < batch → 0 < gasTime →
  0 < partTime → (∃ n : Nat, sim = n * batch) → ∀ (solveGas solvePart : ℚ → ℚ → ℚ) (y0 : ℚ),
  ∃ out, runSplit id solveGas solvePart 0 y0 sim batch gasTime partTime = .ok out

/-- With the constants of the driver the run fails, whatever the solvers do: the 36 rows are used up
after 630 of the 3600 seconds. -/
theorem C49_always_fails {Y : Type*} (solveGas solvePart : Y → ℚ → Y) (zero y0 : Y) :
    runSplit id solveGas solvePart zero y0 3600 100 10 20 = .error .index ∧
      splitClock 100 10 20 36 = 630 := by
  refine ⟨(C49_outcome solveGas solvePart zero y0 (by norm_num) (by norm_num) (by norm_num)
    (by norm_num)).2 ?_, by decide +kernel⟩
  have hf : ⌊(3600 : ℚ) / 100⌋.toNat = 36 := by decide +kernel
  rw [hf]
  decide +kernel

theorem C49_false : ¬ C49_Statement := by
  intro h
  obtain ⟨out, ho⟩ := h 3600 100 10 20 (by norm_num) (by norm_num) (by norm_num) (by norm_num)
    ⟨36, by norm_num⟩ (fun y _ => y) (fun y _ => y) 0
  rw [(C49_always_fails _ _ _ _).1] at ho
  cases ho

/-- What does hold: the run completes if the rows were allocated for batches no longer than the
alternating ones. -/
theorem C49_completes_partial {Y : Type*} (solveGas solvePart : Y → ℚ → Y) (zero y0 : Y)
    {sim batch gasTime partTime : ℚ} (hs : 0 < sim) (hb : 0 < batch) (hg : batch ≤ gasTime)
    (hp : batch ≤ partTime) (hn : ∃ n : Nat, sim = n * batch) :
    ∃ out, runSplit id solveGas solvePart zero y0 sim batch gasTime partTime = .ok out := by
  obtain ⟨n, rfl⟩ := hn
  have hf : ⌊(n : ℚ) * batch / batch⌋.toNat = n := by
    rw [mul_div_assoc, div_self hb.ne', mul_one]
    simp
  have hd : ∀ k, batch ≤ splitDuration batch gasTime partTime k := by
    intro k
    cases k with
    | zero => exact le_rfl
    | succ k => simp only [splitDuration]; split <;> assumption
  have hc : ∀ k : Nat, k * batch ≤ splitClock batch gasTime partTime k := by
    intro k
    induction k with
    | zero => simp [splitClock]
    | succ k ih =>
      rw [splitClock]
      push_cast
      linarith [hd k]
  have hex : ∃ k, (n : ℚ) * batch ≤ splitClock batch gasTime partTime k := ⟨n, hc n⟩
  classical
  have h1 := Nat.find_spec hex
  have h2 : Nat.find hex ≤ n := Nat.find_min' hex (hc n)
  refine ⟨_, (C49_outcome solveGas solvePart zero y0 hs hb (lt_of_lt_of_le hb hg)
    (lt_of_lt_of_le hb hp)).1 (Nat.find hex) (by rw [hf]; exact h2)
    (fun i hi => not_le.1 (Nat.find_min hex hi)) h1⟩

/-- Batches of ten seconds would do. -/
example (g p : ℚ → ℚ → ℚ) (y0 : ℚ) : ∃ out, runSplit id g p 0 y0 3600 10 10 20 = .ok out :=
  C49_completes_partial g p 0 y0 (by norm_num) (by norm_num) le_rfl (by norm_num) ⟨360, by norm_num⟩

end PyBox
