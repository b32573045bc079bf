import Verif.Sim.Model
import Mathlib.Tactic.Linarith
import Mathlib.Tactic.FieldSimp
import Mathlib.Tactic.Ring

/-!
# C32, C33: output times and completion of the batch loop
-/

namespace PyBox

namespace Spec

/-- The time after `k` batches, added up with rounding. -/
def clock (rnd : ℚ → ℚ) (batch : ℚ) : Nat → ℚ
  | 0 => 0
  | k + 1 => rnd (clock rnd batch k + batch)

/-- The state after `k` batches, each started from the end of the one before. -/
def afterBatches {Y : Type*} (solve : Y → ℚ → Y) (batch : ℚ) (y0 : Y) (k : Nat) : Y :=
  (fun y => solve y batch)^[k] y0

/-- The arithmetic makes no error on the quotient and on the multiples of the batch length that a run of
`n` batches meets. -/
def ExactUpTo (rnd : ℚ → ℚ) (batch : ℚ) (n : Nat) : Prop :=
  (∀ k, k ≤ n → rnd (k * batch) = k * batch) ∧ rnd n = n

end Spec

open Spec

section loop

variable {Y : Type*} (rnd : ℚ → ℚ) (solve : Y → ℚ → Y) (sim batch : ℚ) (zero y0 : Y) (n : Nat)

/-- The loop variables after `k` batches, with `n` rows. -/
def loopState (k : Nat) : BatchState Y :=
  { total := clock rnd batch k, step := k, y0 := afterBatches solve batch y0 (k - 1),
    last := afterBatches solve batch y0 k, times := (List.range k).map (fun j => clock rnd batch (j + 1)),
    rows := (List.range k).map (fun j => afterBatches solve batch y0 (j + 1)) ++
      List.replicate (n - k) zero }

theorem loopState_rows (k : Nat) (hk : k ≤ n) :
    (loopState rnd solve batch zero y0 n k).rows.length = n := by
  simp only [loopState, List.length_append, List.length_map, List.length_range, List.length_replicate]
  omega

theorem loop_step (k : Nat) (hk : k < n) (ht : clock rnd batch k < sim)
    (h0 : k ≠ 0 → clock rnd batch k ≠ 0) :
    batchLoop rnd solve sim batch (loopState rnd solve batch zero y0 n k) =
      batchLoop rnd solve sim batch (loopState rnd solve batch zero y0 n (k + 1)) := by
  have hrow := loopState_rows rnd solve batch zero y0 n k hk.le
  have hstart : (if (loopState rnd solve batch zero y0 n k).total = 0
      then (loopState rnd solve batch zero y0 n k).y0
      else (loopState rnd solve batch zero y0 n k).last) = afterBatches solve batch y0 k := by
    by_cases hz : k = 0
    · subst hz; simp [loopState, clock]
    · rw [if_neg]
      · rfl
      · exact h0 hz
  conv_lhs => rw [batchLoop]
  rw [if_pos (show (loopState rnd solve batch zero y0 n k).total < sim from ht)]
  simp only [hstart]
  rw [dif_pos (by rw [hrow]; exact hk)]
  congr 1
  simp only [loopState, BatchState.mk.injEq, clock, Nat.add_sub_cancel, true_and]
  have hs : solve (afterBatches solve batch y0 k) batch = afterBatches solve batch y0 (k + 1) := by
    unfold afterBatches
    rw [Function.iterate_succ_apply']
  rw [hs]
  refine ⟨rfl, ?_, ?_⟩
  · rw [List.range_succ, List.map_append]
    rfl
  · rw [List.range_succ, List.map_append, List.append_assoc]
    rw [List.set_append_right _ _ (by simp)]
    simp only [List.length_map, List.length_range, Nat.sub_self, List.map_cons, List.map_nil]
    congr 1
    have : n - k = (n - (k + 1)) + 1 := by omega
    rw [this, List.replicate_succ]
    rfl

/-- From the state after `k` batches the loop goes on while time is left. -/
theorem loop_run (j : Nat) : ∀ k, k + j ≤ n → (∀ i, k ≤ i → i < k + j → clock rnd batch i < sim) →
    (∀ i, i ≠ 0 → i < k + j → clock rnd batch i ≠ 0) →
    batchLoop rnd solve sim batch (loopState rnd solve batch zero y0 n k) =
      batchLoop rnd solve sim batch (loopState rnd solve batch zero y0 n (k + j)) := by
  induction j with
  | zero => intro k _ _ _; rfl
  | succ j ih =>
    intro k h1 h2 h3
    rw [loop_step rnd solve sim batch zero y0 n k (by omega) (h2 k le_rfl (by omega))
      (fun h => h3 k h (by omega)), ih (k + 1) (by omega) (fun i hi hi' => h2 i (by omega) (by omega))
      (fun i hi hi' => h3 i hi (by omega))]
    congr 2
    omega

theorem loop_stop (k : Nat) (ht : sim ≤ clock rnd batch k) :
    batchLoop rnd solve sim batch (loopState rnd solve batch zero y0 n k) =
      .ok (loopState rnd solve batch zero y0 n k) := by
  rw [batchLoop, if_neg (show ¬ (loopState rnd solve batch zero y0 n k).total < sim from not_lt.2 ht)]

theorem loop_overflow (ht : clock rnd batch n < sim) :
    batchLoop rnd solve sim batch (loopState rnd solve batch zero y0 n n) = .error .index := by
  rw [batchLoop, if_pos (show (loopState rnd solve batch zero y0 n n).total < sim from ht)]
  simp only
  rw [dif_neg]
  rw [loopState_rows rnd solve batch zero y0 n n le_rfl]
  exact lt_irrefl _

theorem loopState_zero :
    loopState rnd solve batch zero y0 n 0 =
      { total := 0, step := 0, y0 := y0, last := y0, times := [], rows := List.replicate n zero } := rfl

/-- Outcome of the loop: it stops at the first clock value that reaches the simulated time, or runs out
of rows. -/
theorem loop_outcome (hpos : ∀ k, k ≠ 0 → clock rnd batch k ≠ 0) :
    (∃ k, k ≤ n ∧ (∀ i < k, clock rnd batch i < sim) ∧ sim ≤ clock rnd batch k ∧
      batchLoop rnd solve sim batch (loopState rnd solve batch zero y0 n 0) =
        .ok (loopState rnd solve batch zero y0 n k)) ∨
    ((∀ i ≤ n, clock rnd batch i < sim) ∧
      batchLoop rnd solve sim batch (loopState rnd solve batch zero y0 n 0) = .error .index) := by
  by_cases h : ∃ k, k ≤ n ∧ sim ≤ clock rnd batch k
  · left
    classical
    have hk := Nat.find_spec h
    have hmin : ∀ i < Nat.find h, clock rnd batch i < sim := by
      intro i hi
      have := Nat.find_min h hi
      rw [not_and] at this
      exact not_le.1 (this (le_trans hi.le hk.1))
    refine ⟨Nat.find h, hk.1, hmin, hk.2, ?_⟩
    rw [loop_run rnd solve sim batch zero y0 n (Nat.find h) 0 (by rw [Nat.zero_add]; exact hk.1)
      (fun i _ hi => hmin i (by rwa [Nat.zero_add] at hi)) (fun i hi _ => hpos i hi), Nat.zero_add,
      loop_stop rnd solve sim batch zero y0 n _ hk.2]
  · right
    push Not at h
    refine ⟨h, ?_⟩
    rw [loop_run rnd solve sim batch zero y0 n n 0 (by omega) (fun i _ hi => h i (by omega))
      (fun i hi _ => hpos i hi), Nat.zero_add, loop_overflow rnd solve sim batch zero y0 n (h n le_rfl)]

end loop

/-! ### Whole runs -/

/-- The number of rows, when the quotient is not negative. -/
theorem rows_of_nonneg {q : ℚ} (h : 0 ≤ q) : ¬ truncQ q < 0 ∧ (truncQ q).toNat = ⌊q⌋.toNat := by
  unfold truncQ
  rw [if_pos h]
  exact ⟨not_lt.2 (Int.floor_nonneg.2 h), rfl⟩

theorem run_eq {Y : Type*} (rnd : ℚ → ℚ) (solve : Y → ℚ → Y) (zero y0 : Y) (sim batch : ℚ)
    (hb : batch ≠ 0) (hq : 0 ≤ rnd (sim / batch)) :
    runSimulation rnd solve zero y0 sim batch =
      match batchLoop rnd solve sim batch
        (loopState rnd solve batch zero y0 ⌊rnd (sim / batch)⌋.toNat 0) with
      | .error e => .error e
      | .ok s => .ok (s.times, s.rows) := by
  obtain ⟨h1, h2⟩ := rows_of_nonneg hq
  unfold runSimulation
  rw [if_neg hb]
  simp only
  rw [if_neg h1, h2, loopState_zero]
  rfl

/-- For any rounding that keeps positive numbers positive, a completed run reports the clock values up
to the first that reaches the simulated time, and the states at those times; there are never more times
than rows, and rows without a time are zero. -/
theorem C32_any_rounding {Y : Type*} {rnd : ℚ → ℚ} (hr : ∀ x, 0 < x → 0 < rnd x) {solve : Y → ℚ → Y}
    {zero y0 : Y} {sim batch : ℚ} (hs : 0 < sim) (hb : 0 < batch) {times : List ℚ} {rows : List Y}
    (h : runSimulation rnd solve zero y0 sim batch = .ok (times, rows)) :
    ∃ n spare, times = (List.range n).map (fun k => clock rnd batch (k + 1)) ∧
      rows = (List.range n).map (fun k => afterBatches solve batch y0 (k + 1)) ++ List.replicate spare zero ∧
      (∀ k < n, clock rnd batch k < sim) ∧ sim ≤ clock rnd batch n ∧
      n + spare = ⌊rnd (sim / batch)⌋.toNat := by
  have hq : 0 < rnd (sim / batch) := hr _ (div_pos hs hb)
  have hpos : ∀ k, k ≠ 0 → clock rnd batch k ≠ 0 := by
    have : ∀ k, 0 ≤ clock rnd batch k ∧ (k ≠ 0 → 0 < clock rnd batch k) := by
      intro k
      induction k with
      | zero => exact ⟨le_rfl, fun h => absurd rfl h⟩
      | succ k ih =>
        have : 0 < clock rnd batch (k + 1) := hr _ (by linarith [ih.1])
        exact ⟨this.le, fun _ => this⟩
    exact fun k hk => ((this k).2 hk).ne'
  rw [run_eq rnd solve zero y0 sim batch hb.ne' hq.le] at h
  rcases loop_outcome rnd solve sim batch zero y0 ⌊rnd (sim / batch)⌋.toNat hpos with
    ⟨k, hk, h1, h2, h3⟩ | ⟨_, h3⟩
  · rw [h3] at h
    injection h with h
    injection h with ht hrw
    exact ⟨k, _, ht.symm, hrw.symm, h1, h2, by omega⟩
  · rw [h3] at h
    cases h

theorem clock_exact {rnd : ℚ → ℚ} {batch : ℚ} {n : Nat} (h : ExactUpTo rnd batch n) :
    ∀ k, k ≤ n → clock rnd batch k = k * batch := by
  intro k
  induction k with
  | zero => intro _; simp [clock]
  | succ k ih =>
    intro hk
    rw [clock, ih (by omega)]
    have e : (k : ℚ) * batch + batch = ((k + 1 : Nat) : ℚ) * batch := by push_cast; ring
    rw [e, h.1 _ hk]

/-- C33, positive part: when the simulated time is a whole number of batches and the arithmetic is exact
on the numbers met, the run completes with exactly the expected times and states. -/
theorem C32_C33_whole_batches {Y : Type*} {rnd : ℚ → ℚ} {batch : ℚ} {n : Nat} (hn : 0 < n)
    (hb : 0 < batch) (he : ExactUpTo rnd batch n) (solve : Y → ℚ → Y) (zero y0 : Y) :
    runSimulation rnd solve zero y0 (n * batch) batch =
      .ok ((List.range n).map (fun k : Nat => ((k : ℚ) + 1) * batch),
        (List.range n).map (fun k => afterBatches solve batch y0 (k + 1))) := by
  have hq : (n : ℚ) * batch / batch = n := by field_simp
  have hf : ⌊rnd ((n : ℚ) * batch / batch)⌋.toNat = n := by rw [hq, he.2]; simp
  rw [run_eq rnd solve zero y0 _ batch hb.ne' (by rw [hq, he.2]; exact Nat.cast_nonneg n), hf]
  have hlt : ∀ i, i < n → clock rnd batch i < n * batch := by
    intro i hi
    rw [clock_exact he i hi.le]
    exact mul_lt_mul_of_pos_right (by exact_mod_cast hi) hb
  have h0 : ∀ i, i ≠ 0 → i < n → clock rnd batch i ≠ 0 := by
    intro i hi hin
    rw [clock_exact he i hin.le]
    exact mul_ne_zero (by exact_mod_cast hi) hb.ne'
  rw [loop_run rnd solve _ batch zero y0 n n 0 (by omega) (fun i _ hi => hlt i (by omega))
    (fun i hi hi' => h0 i hi (by omega)), Nat.zero_add,
    loop_stop rnd solve _ batch zero y0 n n (by rw [clock_exact he n le_rfl])]
  simp only [loopState, Nat.sub_self, List.replicate_zero, List.append_nil]
  congr 2
  refine List.map_congr_left (fun k hk => ?_)
  rw [clock_exact he (k + 1) (by have := List.mem_range.1 hk; omega)]
  push_cast
  ring

theorem exact_id (batch : ℚ) (n : Nat) : ExactUpTo id batch n := ⟨fun _ _ => rfl, rfl⟩

/-- C32: with exact arithmetic a completed run reports `batch, 2 batch, ...`, one row per time, and row
`k` is the state at the end of batch `k + 1`. -/
theorem C32_output_times {Y : Type*} {solve : Y → ℚ → Y} {zero y0 : Y} {sim batch : ℚ} (hs : 0 < sim)
    (hb : 0 < batch) {times : List ℚ} {rows : List Y}
    (h : runSimulation id solve zero y0 sim batch = .ok (times, rows)) :
    ∃ n : Nat, times = (List.range n).map (fun k : Nat => ((k : ℚ) + 1) * batch) ∧
      rows = (List.range n).map (fun k => afterBatches solve batch y0 (k + 1)) ∧ sim = n * batch := by
  obtain ⟨n, spare, ht, hr, h1, h2, h3⟩ := C32_any_rounding (rnd := id) (fun x hx => hx) hs hb h
  have hc : ∀ k, clock id batch k = k * batch := fun k => clock_exact (exact_id batch k) k le_rfl
  simp only [hc] at ht h1 h2
  have hfl : ((n + spare : Nat) : ℚ) ≤ sim / batch := by
    rw [h3]
    have hq : 0 ≤ sim / batch := (div_pos hs hb).le
    have : ((⌊sim / batch⌋.toNat : ℤ) : ℚ) ≤ sim / batch := by
      rw [Int.toNat_of_nonneg (Int.floor_nonneg.2 hq)]
      exact Int.floor_le _
    exact_mod_cast this
  have hup : sim / batch ≤ n := by rw [div_le_iff₀ hb]; exact h2
  have hsp : spare = 0 := by
    have : ((n + spare : Nat) : ℚ) ≤ (n : ℚ) := le_trans hfl hup
    have : n + spare ≤ n := by exact_mod_cast this
    omega
  subst hsp
  refine ⟨n, ?_, by simpa using hr, ?_⟩
  · rw [ht]
    refine List.map_congr_left (fun k _ => by push_cast; ring)
  · have : sim / batch = n := le_antisymm hup (by simpa using hfl)
    rw [← this]
    field_simp

/-- C33 as stated. -/
def C33_Statement : Prop := ∀ (sim batch : ℚ), 0 < sim → 0 < batch →
  ∀ (solve : ℚ → ℚ → ℚ) (y0 : ℚ), ∃ out, runSimulation id solve 0 y0 sim batch = .ok out

/-- Exactly when a run completes: the simulated time is a whole number of batches. -/
theorem C33_exact {Y : Type*} (solve : Y → ℚ → Y) (zero y0 : Y) {sim batch : ℚ} (hs : 0 < sim)
    (hb : 0 < batch) :
    (∃ out, runSimulation id solve zero y0 sim batch = .ok out) ↔ ∃ n : Nat, sim = n * batch := by
  constructor
  · rintro ⟨⟨t, r⟩, h⟩
    obtain ⟨n, -, -, hn⟩ := C32_output_times hs hb h
    exact ⟨n, hn⟩
  · rintro ⟨n, rfl⟩
    have hn : 0 < n := by
      rcases Nat.eq_zero_or_pos n with h | h
      · subst h; simp at hs
      · exact h
    exact ⟨_, C32_C33_whole_batches hn hb (exact_id batch n) solve zero y0⟩

/-- It is false: a run of ten seconds in batches of three fails. -/
theorem C33_false : ¬ C33_Statement := by
  intro h
  obtain ⟨n, hn⟩ := (C33_exact (fun y d => y + d) 0 0 (sim := 10) (batch := 3) (by norm_num)
    (by norm_num)).1 (h 10 3 (by norm_num) (by norm_num) _ 0)
  have : (10 : ℤ) = n * 3 := by exact_mod_cast hn
  omega

/-- A run that does not complete ends with an index error after all its batches were simulated. -/
theorem C33_failure {Y : Type*} (solve : Y → ℚ → Y) (zero y0 : Y) {sim batch : ℚ} (hs : 0 < sim)
    (hb : 0 < batch) (hn : ¬ ∃ n : Nat, sim = n * batch) :
    runSimulation id solve zero y0 sim batch = .error .index := by
  cases h : runSimulation id solve zero y0 sim batch with
  | ok out => exact absurd ((C33_exact solve zero y0 hs hb).1 ⟨out, h⟩) hn
  | error e =>
    rw [run_eq id solve zero y0 sim batch hb.ne' (div_pos hs hb).le] at h
    have hc : ∀ k, clock id batch k = k * batch := fun k => clock_exact (exact_id batch k) k le_rfl
    rcases loop_outcome id solve sim batch zero y0 ⌊id (sim / batch)⌋.toNat
      (fun k hk => by rw [hc]; exact mul_ne_zero (by exact_mod_cast hk) hb.ne') with
      ⟨k, _, _, _, h3⟩ | ⟨_, h3⟩
    · rw [h3] at h; cases h
    · rw [h3] at h
      injection h with h
      rw [h]

/-- The default run of the drivers: one hour in batches of 100 seconds. -/
example (solve : ℚ → ℚ → ℚ) (y0 : ℚ) : ∃ out, runSimulation id solve 0 y0 3600 100 = .ok out :=
  (C33_exact solve 0 y0 (by norm_num) (by norm_num)).2 ⟨36, by norm_num⟩

/-! ### Floating point -/

namespace Spec

/-- `⌊log₂ a⌋` for positive `a`. -/
def floorLog2 (a : ℚ) : ℤ :=
  let k : ℤ := (Nat.log2 a.num.toNat : ℤ) - (Nat.log2 a.den : ℤ)
  if (2 : ℚ) ^ k ≤ a then k else k - 1

/-- Round to the nearest number with a 53-bit significand, ties to even (IEEE 754 binary64 without
overflow and underflow). -/
def rnd64 (x : ℚ) : ℚ :=
  if x = 0 then 0
  else
    let a := |x|
    let u : ℚ := (2 : ℚ) ^ (floorLog2 a - 52)
    let q := a / u
    let f := ⌊q⌋
    let r := q - f
    let m := if r < 1 / 2 then f else if 1 / 2 < r then f + 1 else if f % 2 = 0 then f else f + 1
    (if x < 0 then -1 else 1) * (m * u)

end Spec

theorem floorLog2_nat {n : Nat} (hn : n ≠ 0) : floorLog2 (n : ℚ) = (Nat.log2 n : ℤ) := by
  have h0 : Nat.log2 1 = 0 := by decide
  have h1 : (2 : ℚ) ^ ((Nat.log2 n : ℤ)) ≤ n := by
    rw [zpow_natCast]
    exact_mod_cast Nat.log2_self_le hn
  unfold floorLog2
  simp only [Rat.num_natCast, Rat.den_natCast, Int.toNat_natCast, h0, Nat.cast_zero, sub_zero]
  rw [if_pos h1]

/-- Whole numbers up to `2^53` are not changed by rounding. -/
theorem rnd64_nat {n : Nat} (hn : n < 2 ^ 53) : rnd64 n = n := by
  rcases Nat.eq_zero_or_pos n with rfl | hpos
  · simp [rnd64]
  · have hne : (n : ℚ) ≠ 0 := by exact_mod_cast hpos.ne'
    have hlog : Nat.log2 n ≤ 52 := by
      have := (Nat.log2_lt hpos.ne').2 hn
      omega
    unfold rnd64
    rw [if_neg hne]
    simp only [abs_of_nonneg (Nat.cast_nonneg (α := ℚ) n), floorLog2_nat hpos.ne']
    have hu : (2 : ℚ) ^ ((Nat.log2 n : ℤ) - 52) = ((2 : ℚ) ^ (52 - Nat.log2 n))⁻¹ := by
      rw [← zpow_natCast, ← zpow_neg]
      congr 1
      omega
    have hq : (n : ℚ) / (2 : ℚ) ^ ((Nat.log2 n : ℤ) - 52) = ((n * 2 ^ (52 - Nat.log2 n) : Nat) : ℚ) := by
      rw [hu, div_inv_eq_mul]
      push_cast
      rfl
    rw [hq, Int.floor_natCast]
    simp only [Int.cast_natCast, sub_self]
    rw [if_neg (show ¬ (n : ℚ) < 0 from not_lt.2 (Nat.cast_nonneg n)),
      if_pos (show (0 : ℚ) < 1 / 2 by norm_num), hu]
    push_cast
    field_simp

/-- C33 in floating point: whole numbers of seconds. -/
theorem C33_whole_seconds {Y : Type*} (solve : Y → ℚ → Y) (zero y0 : Y) (n batch : Nat) (hn : 0 < n)
    (hb : 0 < batch) (hlt : n * batch < 2 ^ 53) :
    runSimulation rnd64 solve zero y0 (n * batch) batch =
      .ok ((List.range n).map (fun k : Nat => ((k : ℚ) + 1) * batch),
        (List.range n).map (fun k => afterBatches solve batch y0 (k + 1))) := by
  refine C32_C33_whole_batches hn (by exact_mod_cast hb) ⟨fun k hk => ?_, ?_⟩ solve zero y0
  · have h1 : k * batch < 2 ^ 53 := lt_of_le_of_lt (Nat.mul_le_mul_right _ hk) hlt
    have h2 := rnd64_nat h1
    push_cast at h2
    exact h2
  · exact rnd64_nat (lt_of_le_of_lt (Nat.le_mul_of_pos_right n hb) hlt)

/-- One tenth as a floating point number. -/
def tenth : ℚ := rnd64 (1 / 10)

/-- C33 in floating point is false even for a whole number of batches: one second in batches of a tenth
of a second fails, because ten rounded additions stay below one. -/
theorem C33_false_rounding {Y : Type*} (solve : Y → ℚ → Y) (zero y0 : Y) :
    runSimulation rnd64 solve zero y0 1 tenth = .error .index ∧ rnd64 (1 / tenth) = 10 := by
  have hq : rnd64 (1 / tenth) = 10 := by decide +kernel
  refine ⟨?_, hq⟩
  have hc : ∀ i ≤ 10, clock rnd64 tenth i < 1 ∧ (i ≠ 0 → clock rnd64 tenth i ≠ 0) := by decide +kernel
  rw [run_eq rnd64 solve zero y0 1 tenth (by decide +kernel) (by rw [hq]; norm_num), hq]
  have hf : ⌊(10 : ℚ)⌋.toNat = 10 := by decide +kernel
  rw [hf, loop_run rnd64 solve 1 tenth zero y0 10 10 0 (by omega) (fun i _ hi => (hc i (by omega)).1)
    (fun i hi hi' => (hc i (by omega)).2 hi), Nat.zero_add,
    loop_overflow rnd64 solve 1 tenth zero y0 10 (hc 10 le_rfl).1]

/-- The default run in floating point. -/
example (solve : ℚ → ℚ → ℚ) (y0 : ℚ) : ∃ out, runSimulation rnd64 solve 0 y0 3600 100 = .ok out := by
  have := C33_whole_seconds solve 0 y0 36 100 (by norm_num) (by norm_num) (by norm_num)
  norm_num at this
  exact ⟨_, this⟩

end PyBox
