import Verif.Props.SplitRuns

/-!
# C90: how long the two processes of an operator-split simulation run

The driver adds the length of every batch to one clock, so each process is advanced only for its own
batches.  To separate this from the error of splitting itself, `C90` speaks of processes that commute, for
which splitting makes no error.
-/

namespace PyBox

open Set Spec Aerosol

namespace Spec

/-- `solve` advances a state by a length of time: nothing for none, and two lengths one after the other are
as good as both at once. -/
structure IsFlow {Y : Type*} (solve : Y → ℚ → Y) : Prop where
  zero : ∀ y, solve y 0 = y
  add : ∀ y a b, 0 ≤ a → 0 ≤ b → solve (solve y a) b = solve y (a + b)

/-- It does not matter which process acts first. -/
def Commute {Y : Type*} (solveGas solvePart : Y → ℚ → Y) : Prop :=
  ∀ y a b, 0 ≤ a → 0 ≤ b → solveGas (solvePart y b) a = solvePart (solveGas y a) b

/-- The time the gas-phase chemistry has been advanced after `k` batches. -/
def gasAdvance (batch gasTime : ℚ) : ℕ → ℚ
  | 0 => 0
  | k + 1 => batch + (k / 2 : ℕ) * gasTime

/-- The time the partitioning has been advanced after `k` batches. -/
def partAdvance (partTime : ℚ) (k : ℕ) : ℚ := (k / 2 : ℕ) * partTime

end Spec

/-- C90 as stated: at a reported time both processes have acted for this time. -/
def C90_Statement : Prop := ∀ (solveGas solvePart : ℚ → ℚ → ℚ), IsFlow solveGas → IsFlow solvePart →
  Spec.Commute solveGas solvePart → ∀ (y0 sim batch gasTime partTime : ℚ), 0 < sim → 0 < batch → 0 < gasTime →
  0 < partTime → ∀ times rows, runSplit id solveGas solvePart 0 y0 sim batch gasTime partTime = .ok (times, rows) →
  ∀ (j : ℕ) (t row : ℚ), times[j]? = some t → rows[j]? = some row → row = solveGas (solvePart y0 t) t

/-! ## The advances -/

theorem advance_succ (batch gasTime partTime : ℚ) (k : ℕ) :
    gasAdvance batch gasTime (k + 1) = gasAdvance batch gasTime k
        + (if k % 2 = 0 then splitDuration batch gasTime partTime k else 0) ∧
      partAdvance partTime (k + 1) = partAdvance partTime k
        + (if k % 2 = 0 then 0 else splitDuration batch gasTime partTime k) := by
  rcases Nat.mod_two_eq_zero_or_one k with hk | hk
  · rw [if_pos hk, if_pos hk]
    constructor
    · cases k with
      | zero => simp [gasAdvance, splitDuration]
      | succ k =>
        have h1 : k % 2 = 1 := by omega
        have h2 : (k + 1) / 2 = k / 2 + 1 := by omega
        simp only [gasAdvance, splitDuration]
        rw [if_neg (by omega), h2]
        push_cast
        ring
    · have h2 : (k + 1) / 2 = k / 2 := by omega
      simp only [partAdvance]
      rw [h2, add_zero]
  · rw [if_neg (by omega), if_neg (by omega)]
    cases k with
    | zero => simp at hk
    | succ k =>
      have h1 : k % 2 = 0 := by omega
      have h2 : (k + 1) / 2 = k / 2 := by omega
      have h3 : (k + 1 + 1) / 2 = (k + 1) / 2 + 1 := by omega
      constructor
      · simp only [gasAdvance]
        rw [h2, add_zero]
      · simp only [partAdvance, splitDuration]
        rw [h3, if_pos h1]
        push_cast
        ring

/-- The reported time is the sum of the two advances. -/
theorem C90_clock (batch gasTime partTime : ℚ) (k : ℕ) :
    splitClock batch gasTime partTime k = gasAdvance batch gasTime k + partAdvance partTime k := by
  induction k with
  | zero => simp [splitClock, gasAdvance, partAdvance]
  | succ k ih =>
    obtain ⟨h1, h2⟩ := advance_succ batch gasTime partTime k
    rw [splitClock, ih, h1, h2]
    split <;> ring

theorem advance_nonneg {batch gasTime partTime : ℚ} (hb : 0 < batch) (hg : 0 < gasTime) (hp : 0 < partTime)
    (k : ℕ) : 0 ≤ gasAdvance batch gasTime k ∧ 0 ≤ partAdvance partTime k := by
  constructor
  · cases k with
    | zero => exact le_rfl
    | succ k => simp only [gasAdvance]; positivity
  · simp only [partAdvance]; positivity

theorem afterSplit_advance {Y : Type*} {solveGas solvePart : Y → ℚ → Y} (hfg : IsFlow solveGas)
    (hfp : IsFlow solvePart) (hc : Spec.Commute solveGas solvePart) {batch gasTime partTime : ℚ}
    (hb : 0 < batch) (hg : 0 < gasTime) (hp : 0 < partTime) (y0 : Y) (k : ℕ) :
    afterSplit solveGas solvePart batch gasTime partTime y0 k
      = solveGas (solvePart y0 (partAdvance partTime k)) (gasAdvance batch gasTime k) := by
  induction k with
  | zero => simp [afterSplit, gasAdvance, partAdvance, hfg.zero, hfp.zero]
  | succ k ih =>
    obtain ⟨h1, h2⟩ := advance_succ batch gasTime partTime k
    obtain ⟨n1, n2⟩ := advance_nonneg hb hg hp k
    have hd := (splitDuration_pos hb hg hp k).le
    rw [afterSplit, ih, h1, h2]
    by_cases hk : k % 2 = 0
    · rw [if_pos hk, if_pos hk, if_pos hk, hfg.add _ _ _ n1 hd, add_zero]
    · rw [if_neg hk, if_neg hk, if_neg hk, ← hc _ _ _ n1 hd, hfp.add _ _ _ n2 hd, add_zero]

/-- C90, what happens: row `j` is the state after the chemistry has acted for `gasAdvance` and the
partitioning for `partAdvance`, whose sum is the reported time. -/
theorem C90_exact {Y : Type*} {solveGas solvePart : Y → ℚ → Y} (hfg : IsFlow solveGas)
    (hfp : IsFlow solvePart) (hc : Spec.Commute solveGas solvePart) {sim batch gasTime partTime : ℚ}
    (hs : 0 < sim) (hb : 0 < batch) (hg : 0 < gasTime) (hp : 0 < partTime) {zero y0 : Y} {times : List ℚ}
    {rows : List Y}
    (hrun : runSplit id solveGas solvePart zero y0 sim batch gasTime partTime = .ok (times, rows))
    {j : ℕ} {t : ℚ} {row : Y} (ht : times[j]? = some t) (hrow : rows[j]? = some row) :
    t = gasAdvance batch gasTime (j + 1) + partAdvance partTime (j + 1) ∧
      row = solveGas (solvePart y0 (partAdvance partTime (j + 1))) (gasAdvance batch gasTime (j + 1)) := by
  obtain ⟨k, -, -, -, et, er⟩ := split_output hs hb hg hp hrun
  have hj : j < k := by
    have := (List.getElem?_eq_some_iff.1 ht).1
    rw [et] at this
    simpa using this
  rw [et, List.getElem?_map, List.getElem?_range hj] at ht
  rw [er, List.getElem?_append_left (by simpa using hj), List.getElem?_map, List.getElem?_range hj] at hrow
  rw [← Option.some.inj ht, ← Option.some.inj hrow]
  exact ⟨C90_clock _ _ _ _, afterSplit_advance hfg hfp hc hb hg hp y0 _⟩

/-- What does hold: with batches of one length `h`, every second row is the state both processes lead to, at
half the reported time. -/
theorem C90_half_partial {Y : Type*} {solveGas solvePart : Y → ℚ → Y} (hfg : IsFlow solveGas)
    (hfp : IsFlow solvePart) (hc : Spec.Commute solveGas solvePart) {sim h : ℚ}
    (hs : 0 < sim) (hh : 0 < h) {zero y0 : Y} {times : List ℚ} {rows : List Y}
    (hrun : runSplit id solveGas solvePart zero y0 sim h h h = .ok (times, rows))
    {j : ℕ} (hodd : j % 2 = 1) {t : ℚ} {row : Y} (ht : times[j]? = some t) (hrow : rows[j]? = some row) :
    row = solveGas (solvePart y0 (t / 2)) (t / 2) := by
  obtain ⟨e1, e2⟩ := C90_exact hfg hfp hc hs hh hh hh hrun ht hrow
  have h2 : ((j + 1) / 2 : ℕ) = j / 2 + 1 := by omega
  have a1 : gasAdvance h h (j + 1) = (j / 2 + 1 : ℕ) * h := by
    simp only [gasAdvance]
    push_cast
    ring
  have a2 : partAdvance h (j + 1) = (j / 2 + 1 : ℕ) * h := by
    simp only [partAdvance]
    rw [h2]
  rw [a1, a2] at e1 e2
  have e3 : t / 2 = (j / 2 + 1 : ℕ) * h := by rw [e1]; ring
  rw [e3]
  exact e2

/-- C90 fails in every completed run in which the first batch matters: the first row has not been
partitioned at all. -/
theorem C90_first_row {Y : Type*} {solveGas solvePart : Y → ℚ → Y} {sim batch gasTime partTime : ℚ}
    (hs : 0 < sim) (hb : 0 < batch) (hg : 0 < gasTime) (hp : 0 < partTime) {zero y0 : Y} {times : List ℚ}
    {rows : List Y}
    (hrun : runSplit id solveGas solvePart zero y0 sim batch gasTime partTime = .ok (times, rows)) :
    times[0]? = some batch ∧ rows[0]? = some (solveGas y0 batch) := by
  obtain ⟨k, -, -, hk, et, er⟩ := split_output hs hb hg hp hrun
  have hk0 : 0 < k := by
    rcases Nat.eq_zero_or_pos k with rfl | h
    · exact absurd hs (not_lt.2 hk)
    · exact h
  rw [et, er, List.getElem?_map, List.getElem?_append_left (by simpa using hk0), List.getElem?_map,
    List.getElem?_range hk0]
  simp [splitClock, splitDuration, afterSplit]

theorem C90_false : ¬ C90_Statement := by
  intro hst
  obtain ⟨⟨times, rows⟩, hrun⟩ := C49_completes_partial (fun y d : ℚ => y + d) (fun y d : ℚ => y - d)
    (0 : ℚ) 0 (sim := 60) (batch := 10) (gasTime := 10) (partTime := 20) (by norm_num) (by norm_num) le_rfl
    (by norm_num) ⟨6, by norm_num⟩
  obtain ⟨h1, h2⟩ := C90_first_row (by norm_num) (by norm_num) (by norm_num) (by norm_num) hrun
  have := hst _ _ ⟨fun y => by simp, fun y a b _ _ => by ring⟩ ⟨fun y => by simp, fun y a b _ _ => by ring⟩
    (fun y a b _ _ => by ring) 0 60 10 10 20 (by norm_num) (by norm_num) (by norm_num) (by norm_num) times
    rows hrun 0 10 (0 + 10) h1 h2
  norm_num at this

/-- With the lengths of the driver (100, 10 and 20 s) the chemistry has run for 280 s and the partitioning
for 360 s when the clock shows 640 s, if the run got that far. -/
example : splitClock 100 10 20 37 = 640 ∧ gasAdvance 100 10 37 = 280 ∧ partAdvance 20 37 = 360 := by
  decide +kernel

/-! ## The time of day -/

/-- C90, time of day: every batch starts the solver at time 0, so only the rate coefficients of the first
`max batch gasTime` seconds after `start_time` are used: exact solvers for one choice of rate coefficients
are exact for any other that agrees there. -/
theorem C90_sun {m : Mechanism} {cores : Option ℕ} {bins species : ℕ} {temp : ℝ} {rates rates' : Rates}
    {start h2o : ℝ} {n : ℕ} {Fg Fg' Fp : ℝ → (Fin n → ℝ) → Fin n → ℝ}
    (hFg : GasOnlySystem m cores bins species temp rates start h2o Fg)
    (hFg' : GasOnlySystem m cores bins species temp rates' start h2o Fg')
    {batch gasTime partTime : ℚ}
    (hsame : ∀ t : ℝ, 0 ≤ t → t ≤ max (batch : ℝ) gasTime → ∀ ro2,
      rates (start + t) ro2 h2o temp = rates' (start + t) ro2 h2o temp)
    {solveGas solvePart : (Fin n → ℝ) → ℚ → Fin n → ℝ} {y0 : Fin n → ℝ} {k : ℕ}
    (hex : ExactSplit Fg Fp solveGas solvePart batch gasTime partTime y0 k) :
    ExactSplit Fg' Fp solveGas solvePart batch gasTime partTime y0 k := by
  have hF : ∀ t : ℝ, 0 ≤ t → t ≤ max (batch : ℝ) gasTime → Fg t = Fg' t := by
    intro t h0 h1
    funext z i
    obtain ⟨out, ho, hi⟩ := hFg.2 t z
    obtain ⟨out', ho', hi'⟩ := hFg'.2 t z
    have : some out = some out' := by
      rw [← ho, ← ho']
      unfold gasOnlyRhs
      simp only [hsame t h0 h1]
    rw [hi, hi', Option.some.inj this]
  intro j hj
  obtain ⟨u, h1, h2, h3⟩ := hex j hj
  refine ⟨u, h1, ?_, h3⟩
  by_cases hm : j % 2 = 0
  · rw [if_pos hm] at h2 ⊢
    obtain ⟨hc, S, hS, hd⟩ := h2
    refine ⟨hc, S, hS, fun t ht htS => ?_⟩
    have hle : ((splitDuration batch gasTime partTime j : ℚ) : ℝ) ≤ max (batch : ℝ) gasTime := by
      cases j with
      | zero => exact le_max_left _ _
      | succ j =>
        simp only [splitDuration]
        rw [if_neg (by omega)]
        exact le_max_right _ _
    rw [← hF t ht.1 (ht.2.le.trans hle)]
    exact hd t ht htS
  · rw [if_neg hm] at h2 ⊢
    exact h2

/-- The hypotheses of `C90_exact` are met. -/
example : IsFlow (fun y d : ℚ => y + 2 * d) ∧ IsFlow (fun y d : ℚ => y - d) ∧
    Spec.Commute (fun y d : ℚ => y + 2 * d) (fun y d : ℚ => y - d) :=
  ⟨⟨fun y => by ring, fun y a b _ _ => by ring⟩, ⟨fun y => by ring, fun y a b _ _ => by ring⟩,
    fun y a b _ _ => by ring⟩

end PyBox
