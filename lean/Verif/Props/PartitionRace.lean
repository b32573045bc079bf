import Verif.Props.Partition

/-!
# The parallel loop of the partitioning routine (C51)

The loop over size bins is an OpenMP `PARALLEL DO` (3533).  Its clauses list the
private variables but not `index1` and `index2`, which every pass assigns and
then uses to select the slice of `dy_dt` it writes.
-/

namespace PyBox

open Aerosol Spec

namespace Spec

/-- `ev` is a possible order of execution of `n` passes when pass `b` is given
to thread `thr b` and every thread executes its own passes in order. -/
def Interleaving (n : ℕ) (thr : ℕ → ℕ) (ev : List Event) : Prop :=
  ∀ t, ev.filter (fun e => thr e.bin = t) = (serialEvents n).filter (fun e => thr e.bin = t)

/-- C51 in full: whatever the number of threads and whatever their order of
execution, the routine returns the same array. -/
def C51_Statement : Prop :=
  ∀ (L : Layout) (P : PartInput) (thr : ℕ → ℕ) (ev : List Event), GoodLayout L →
    (∀ b < L.numBins, Physical L P b) → Interleaving L.numBins thr ev →
    ∀ i, partitionWith L P ev i = partition L P i

/-- The bin of the last statement of kind `k`. -/
def lastBin (k : Stage) (ev : List Event) : Option ℕ :=
  ((ev.filter (fun e => e.stage = k)).getLast?).map Event.bin

/-- Whenever a slice is written, the two indices were last set for the same
bin. -/
def Synced (ev : List Event) : Prop :=
  ∀ pre b post, ev = pre ++ ⟨b, .writeSlice⟩ :: post →
    lastBin .setIndex1 pre = some b ∧ lastBin .setIndex2 pre = some b

end Spec

/-! ## One thread -/

theorem filter_const (ev : List Event) (thr : ℕ → ℕ) (t : ℕ)
    (h : ∀ e ∈ ev, thr e.bin = t) : ev.filter (fun e => thr e.bin = t) = ev := by
  rw [List.filter_eq_self]
  intro e he
  simpa using h e he

/-- With one thread there is only one order of execution. -/
theorem C51_one_thread (L : Layout) (P : PartInput) (ev : List Event)
    (h : Interleaving L.numBins (fun _ => 0) ev) :
    partitionWith L P ev = partition L P := by
  have := h 0
  rw [filter_const ev (fun _ => 0) 0 (by simp),
    filter_const (serialEvents _) (fun _ => 0) 0 (by simp)] at this
  rw [this, partition]

/-! ## Schedules without interference -/

theorem runEvents_snoc (L : Layout) (dm : ℕ → ℕ → ℝ) (ev : List Event) (e : Event) (s : Shared) :
    runEvents L dm (ev ++ [e]) s = step L dm (runEvents L dm ev s) e := by
  simp [runEvents, List.foldl_append]

theorem lastBin_snoc (k : Stage) (ev : List Event) (e : Event) :
    lastBin k (ev ++ [e]) = if e.stage = k then some e.bin else lastBin k ev := by
  unfold lastBin
  by_cases h : e.stage = k
  · simp [List.filter_append, h]
  · simp [List.filter_append, h]

theorem index1_last (L : Layout) (dm : ℕ → ℕ → ℝ) (ev : List Event) (s : Shared) (b : ℕ)
    (h : lastBin .setIndex1 ev = some b) : (runEvents L dm ev s).index1 = firstIndex L b := by
  induction ev using List.reverseRecOn with
  | nil => simp [lastBin] at h
  | append_singleton ev e ih =>
    rw [lastBin_snoc] at h
    rw [runEvents_snoc]
    obtain ⟨c, k⟩ := e
    cases k
    · simp only [if_true, Option.some.injEq] at h
      subst h; rfl
    · simp only [reduceCtorEq, if_false] at h
      exact ih h
    · simp only [reduceCtorEq, if_false] at h
      exact ih h

theorem index2_last (L : Layout) (dm : ℕ → ℕ → ℝ) (ev : List Event) (s : Shared) (b : ℕ)
    (h : lastBin .setIndex2 ev = some b) : (runEvents L dm ev s).index2 = lastIndex L b := by
  induction ev using List.reverseRecOn with
  | nil => simp [lastBin] at h
  | append_singleton ev e ih =>
    rw [lastBin_snoc] at h
    rw [runEvents_snoc]
    obtain ⟨c, k⟩ := e
    cases k
    · simp only [reduceCtorEq, if_false] at h
      exact ih h
    · simp only [if_true, Option.some.injEq] at h
      subst h; rfl
    · simp only [reduceCtorEq, if_false] at h
      exact ih h

/-- Bins written. -/
def writes (ev : List Event) : List ℕ :=
  (ev.filter (fun e => e.stage = .writeSlice)).map Event.bin

theorem writes_snoc (ev : List Event) (e : Event) :
    writes (ev ++ [e]) = if e.stage = .writeSlice then writes ev ++ [e.bin] else writes ev := by
  unfold writes
  by_cases h : e.stage = .writeSlice <;> simp [List.filter_append, h]

theorem Spec.Synced.prefix {ev : List Event} {e : Event} (h : Synced (ev ++ [e])) : Synced ev := by
  intro pre b post he
  refine h pre b (post ++ [e]) ?_
  rw [he]; simp

theorem synced_slot (L : Layout) (dm : ℕ → ℕ → ℝ) (ev : List Event) (s : Shared)
    (h : Synced ev) (hpos : ∀ c ∈ writes ev, 1 ≤ c) (b j : ℕ) (hj : j < L.numCond) :
    (runEvents L dm ev s).dyDt (L.numSpecies + b * L.numCond + j + 1)
      = if b + 1 ∈ writes ev then dm (b + 1) (j + 1)
        else s.dyDt (L.numSpecies + b * L.numCond + j + 1) := by
  induction ev using List.reverseRecOn with
  | nil => simp [runEvents, writes]
  | append_singleton ev e ih =>
    rw [runEvents_snoc]
    rw [writes_snoc] at hpos ⊢
    obtain ⟨c, k⟩ := e
    cases k
    · simp only [reduceCtorEq, if_false] at hpos ⊢
      exact ih h.prefix hpos
    · simp only [reduceCtorEq, if_false] at hpos ⊢
      exact ih h.prefix hpos
    · simp only [if_true] at hpos ⊢
      have hl := h ev c [] rfl
      have ih' := ih h.prefix (fun d hd => hpos d (by simp [hd]))
      have hc : 1 ≤ c := hpos c (by simp)
      obtain ⟨c, rfl⟩ : ∃ d, c = d + 1 := ⟨c - 1, by omega⟩
      show assignSlice (runEvents L dm ev s).dyDt (runEvents L dm ev s).index1
        (runEvents L dm ev s).index2 (dm (c + 1)) _ = _
      rw [index1_last L dm ev s _ hl.1, index2_last L dm ev s _ hl.2]
      by_cases hcb : c = b
      · subst hcb
        rw [assign_own L _ _ hj, if_pos (by simp)]
      · rw [assign_other L _ _ hj hcb, ih']
        have : (b + 1 ∈ writes ev ++ [c + 1]) ↔ b + 1 ∈ writes ev := by
          simp only [List.mem_append, List.mem_singleton]
          constructor
          · rintro (h | h)
            · exact h
            · omega
          · exact Or.inl
        by_cases hm : b + 1 ∈ writes ev
        · rw [if_pos hm, if_pos (this.2 hm)]
        · rw [if_neg hm, if_neg (fun h => hm (this.1 h))]

theorem synced_gas (L : Layout) (dm : ℕ → ℕ → ℝ) (ev : List Event) (s : Shared)
    (h : Synced ev) (hpos : ∀ c ∈ writes ev, 1 ≤ c) (i : ℕ) (hi : i ≤ L.numSpecies) :
    (runEvents L dm ev s).dyDt i = s.dyDt i := by
  induction ev using List.reverseRecOn with
  | nil => rfl
  | append_singleton ev e ih =>
    rw [runEvents_snoc]
    rw [writes_snoc] at hpos
    obtain ⟨c, k⟩ := e
    cases k
    · simp only [reduceCtorEq, if_false] at hpos
      exact ih h.prefix hpos
    · simp only [reduceCtorEq, if_false] at hpos
      exact ih h.prefix hpos
    · simp only [if_true] at hpos
      have hl := h ev c [] rfl
      have hc : 1 ≤ c := hpos c (by simp)
      obtain ⟨c, rfl⟩ : ∃ d, c = d + 1 := ⟨c - 1, by omega⟩
      show assignSlice (runEvents L dm ev s).dyDt (runEvents L dm ev s).index1
        (runEvents L dm ev s).index2 (dm (c + 1)) _ = _
      rw [index1_last L dm ev s _ hl.1, index2_last L dm ev s _ hl.2, assign_gas L _ _ hi]
      exact ih h.prefix (fun d hd => hpos d (by simp [hd]))

/-- C51, as far as it holds: if no pass sets the indices between another pass
setting and using them, the result is that of one thread, whatever the order
of the passes.  Missing: schedules in which two passes overlap there; the code
does nothing to exclude them (`C51_false`). -/
theorem C51_synced_partial (L : Layout) (P : PartInput) (ev : List Event) (h : Synced ev)
    (hw : ∀ b, b ∈ writes ev ↔ 1 ≤ b ∧ b ≤ L.numBins) :
    ∀ i < L.numSpecies + L.numBins * L.numCond, partitionWith L P ev i = partition L P i := by
  intro i hi
  have hpos : ∀ c ∈ writes ev, 1 ≤ c := fun c hc => ((hw c).1 hc).1
  rcases C38_layout L.numSpecies L.numCond L.numBins i hi with ⟨hs, _⟩ | ⟨_, ⟨b, j⟩, ⟨hb, hj, he⟩, _⟩
  · unfold partition partitionWith dyDtWith
    rw [if_pos (by omega), if_pos (by omega), synced_gas L _ _ _ h hpos _ (by omega),
      serial_gas L _ _ _ _ (by omega)]
  · simp only at hb hj he
    subst he
    rw [partition_slot L P b j hb hj]
    unfold partitionWith dyDtWith
    rw [if_neg (by omega), synced_slot L _ _ _ h hpos b j hj, if_pos ((hw _).2 (by omega))]

/-- The order `2, 1` of two passes is such a schedule. -/
example : Synced (binEvents 2 ++ binEvents 1) ∧
    ∀ b, b ∈ writes (binEvents 2 ++ binEvents 1) ↔ 1 ≤ b ∧ b ≤ 2 := by
  constructor
  · intro pre b post he
    have hlen : pre.length < 6 := by
      have := congrArg List.length he
      simp [binEvents] at this; omega
    have hpre : pre = (binEvents 2 ++ binEvents 1).take pre.length := by rw [he]; simp
    have hget : (binEvents 2 ++ binEvents 1)[pre.length]? = some ⟨b, .writeSlice⟩ := by
      rw [he]; simp
    generalize pre.length = n at hlen hpre hget
    subst hpre
    rcases (by omega : n = 0 ∨ n = 1 ∨ n = 2 ∨ n = 3 ∨ n = 4 ∨ n = 5) with
      rfl | rfl | rfl | rfl | rfl | rfl <;> simp [binEvents] at hget <;> subst hget <;> decide
  · intro b
    simp only [writes, binEvents, List.cons_append, List.nil_append]
    simp
    omega

/-! ## The race -/

theorem run_atomic (L : Layout) (dm : ℕ → ℕ → ℝ) (l : List ℕ) (s : Shared) (b j : ℕ)
    (hj : j < L.numCond) (hb : b ∉ l) :
    (runEvents L dm (l.flatMap (fun k => binEvents (k + 1))) s).dyDt
        (L.numSpecies + b * L.numCond + j + 1)
      = s.dyDt (L.numSpecies + b * L.numCond + j + 1) := by
  induction l generalizing s with
  | nil => rfl
  | cons a l ih =>
    simp only [List.mem_cons, not_or] at hb
    rw [List.flatMap_cons, runEvents_append, ih _ hb.2, run_binEvents,
      assign_other L _ _ hj (Ne.symm hb.1)]

/-- Two threads: the first pass alone, the others on the second thread.  The
second thread sets the indices just before the first one uses them. -/
def racyEvents (n : ℕ) : List Event :=
  [⟨1, .setIndex1⟩, ⟨1, .setIndex2⟩, ⟨2, .setIndex1⟩, ⟨2, .setIndex2⟩,
    ⟨1, .writeSlice⟩, ⟨2, .writeSlice⟩] ++
    (List.range' 2 n).flatMap (fun k => binEvents (k + 1))

/-- First pass on thread 0, all others on thread 1. -/
def twoThreads (b : ℕ) : ℕ := if b ≤ 1 then 0 else 1

theorem racy_interleaving (n : ℕ) : Interleaving (n + 2) twoThreads (racyEvents n) := by
  have hs : serialEvents (n + 2) = binEvents 1 ++ binEvents 2 ++
      (List.range' 2 n).flatMap (fun k => binEvents (k + 1)) := by
    unfold serialEvents
    rw [List.range_eq_range', List.range'_succ, List.range'_succ]
    simp [List.flatMap_cons]
  have htail : ∀ e ∈ (List.range' 2 n).flatMap (fun k => binEvents (k + 1)),
      twoThreads e.bin = 1 := by
    intro e he
    obtain ⟨k, hk, hke⟩ := List.mem_flatMap.1 he
    have h2 : 2 ≤ k := by
      have := List.mem_range'_1.1 hk; omega
    have : e.bin = k + 1 := by
      simp only [binEvents, List.mem_cons, List.not_mem_nil, or_false] at hke
      rcases hke with rfl | rfl | rfl <;> rfl
    rw [this, twoThreads, if_neg (by omega)]
  intro t
  rw [hs, racyEvents, List.filter_append, List.filter_append _ (List.flatMap _ _)]
  congr 1
  by_cases h0 : t = 0
  · subst h0; decide
  · by_cases h1 : t = 1
    · subst h1; decide
    · have e0 : ¬ (0 = t) := fun h => h0 h.symm
      have e1 : ¬ (1 = t) := fun h => h1 h.symm
      simp [binEvents, twoThreads, e0, e1]

theorem racy_lost (L : Layout) (P : PartInput) (n : ℕ) :
    ∀ j < L.numCond, partitionWith L P (racyEvents n) (L.numSpecies + j) = 0 := by
  intro j hj
  unfold partitionWith dyDtWith
  rw [if_neg (by omega), racyEvents, runEvents_append]
  have h := fun s => run_atomic L (fun b => dmDt L P b) (List.range' 2 n) s 0 j hj
    (by simp [List.mem_range'_1])
  simp only [Nat.zero_mul, Nat.add_zero] at h
  rw [h]
  show assignSlice (assignSlice (fun _ => 0) (firstIndex L 2) (lastIndex L 2) (dmDt L P 1))
    (firstIndex L 2) (lastIndex L 2) (dmDt L P 2) _ = 0
  have h1 := fun D v => assign_other L D v (b := 1) (b' := 0) hj (by omega)
  simp only [Nat.zero_mul, Nat.add_zero, Nat.reduceAdd] at h1
  rw [h1, h1]

/-- C51: as soon as there are two bins, the value of every condensed species of
the first bin can be lost: there is an order of execution by two threads in
which it is 0. -/
theorem C51_lost_update (L : Layout) (P : PartInput) (hn : 2 ≤ L.numBins) :
    ∃ ev, Interleaving L.numBins twoThreads ev ∧
      ∀ j < L.numCond, partitionWith L P ev (L.numSpecies + j) = 0 := by
  obtain ⟨n, hn'⟩ : ∃ n, L.numBins = n + 2 := ⟨L.numBins - 2, by omega⟩
  exact ⟨racyEvents n, hn' ▸ racy_interleaving n, racy_lost L P n⟩

/-- With two bins, one thread and the racing schedule also disagree about the
molecules that leave the gas: `C36` itself fails. -/
theorem C51_breaks_conservation (L : Layout) (P : PartInput) (hL : GoodLayout L)
    (hn : L.numBins = 2) (j : ℕ) (hj : j < L.incl.length)
    (hne : dmDt L P 1 (j + 1) ≠ 0) :
    ∃ ev, Interleaving L.numBins twoThreads ev ∧
      partitionWith L P ev L.incl[j]
        ≠ - ∑ b ∈ Finset.range L.numBins,
            partitionWith L P ev (L.numSpecies + b * L.numCond + j) := by
  have hj' : j < L.numCond := hL.len ▸ hj
  refine ⟨racyEvents 0, hn ▸ racy_interleaving 0, ?_⟩
  have hgas : partitionWith L P (racyEvents 0) L.incl[j] = partition L P L.incl[j] := by
    have hv := hL.valid _ (List.getElem_mem hj)
    unfold partition partitionWith dyDtWith
    rw [if_pos (by omega), if_pos (by omega), serial_gas L _ _ _ _ (by omega)]
    congr 1
    show assignSlice (assignSlice (fun _ => 0) (firstIndex L 2) (lastIndex L 2) (dmDt L P 1))
      (firstIndex L 2) (lastIndex L 2) (dmDt L P 2) _ = 0
    have h1 := fun D v => assign_gas L D v (b := 1) (i := L.incl[j] + 1) (by omega)
    simp only [Nat.reduceAdd] at h1
    rw [h1, h1]
  have h0 : partitionWith L P (racyEvents 0) (L.numSpecies + 0 * L.numCond + j) = 0 := by
    unfold partitionWith dyDtWith
    rw [if_neg (by omega)]
    show assignSlice (assignSlice (fun _ => 0) (firstIndex L 2) (lastIndex L 2) (dmDt L P 1))
      (firstIndex L 2) (lastIndex L 2) (dmDt L P 2) _ = 0
    have h1 := fun D v => assign_other L D v (b := 1) (b' := 0) hj' (by omega)
    simp only [Nat.reduceAdd] at h1
    rw [h1, h1]
  have h1 : partitionWith L P (racyEvents 0) (L.numSpecies + 1 * L.numCond + j)
      = dmDt L P 2 (j + 1) := by
    unfold partitionWith dyDtWith
    rw [if_neg (by omega)]
    show assignSlice (assignSlice (fun _ => 0) (firstIndex L 2) (lastIndex L 2) (dmDt L P 1))
      (firstIndex L 2) (lastIndex L 2) (dmDt L P 2) _ = _
    exact assign_own L _ _ (b := 1) hj'
  rw [hgas, C36_exchange L P hL j hj, hn, Finset.sum_range_succ, Finset.sum_range_succ,
    Finset.sum_range_succ, Finset.sum_range_succ, Finset.sum_range_zero, Finset.sum_range_zero,
    h0, h1, partition_slot L P 0 j (by omega) hj', partition_slot L P 1 j (by omega) hj']
  intro he
  apply hne
  have : dmDt L P (0 + 1) (j + 1) = 0 := by linarith
  simpa using this

/-- Nothing evaporates here, so every species condenses. -/
noncomputable def dryInput : PartInput := { sampleInput with psat := fun _ => 0 }

theorem dryInput_physical (b : ℕ) : Physical sampleLayout dryInput b where
  conc := by intro j _; simp only [conc, dryInput, sampleInput]; positivity
  na := by norm_num [dryInput, sampleInput]
  mw := by intro j _; norm_num [dryInput, sampleInput]
  core := by norm_num [dryInput, sampleInput]
  rho := by intro j _; norm_num [dryInput, sampleInput]
  coreRho := by norm_num [dryInput, sampleInput]
  number := by norm_num [dryInput, sampleInput]
  diff := by intro j _; norm_num [dryInput, sampleInput]
  acc := by intro j _; norm_num [dryInput, sampleInput]
  path := by intro j _; norm_num [dryInput, sampleInput]

theorem dryInput_condenses (b j : ℕ) (hb : b < 2) (hj : j < 2) :
    0 < partition sampleLayout dryInput (3 + b * 2 + j) := by
  have h := dryInput_physical b
  have := (C39_driven sampleLayout dryInput b j hb hj h _ h.size_isRadius).1
  refine this.2 ?_
  have e0 : dryInput.psat (j + 1) = 0 := rfl
  have e1 : dryInput.cgas (j + 1) = ((j + 1 : ℕ) : ℝ) := rfl
  rw [e1]
  simp only [equilibrium, e0]
  have : (0 : ℝ) < ((j + 1 : ℕ) : ℝ) := by positivity
  simpa using this

/-- C51 does not hold. -/
theorem C51_false : ¬ C51_Statement := by
  intro h
  obtain ⟨ev, hev, h0⟩ := C51_lost_update sampleLayout dryInput (by decide)
  have h1 := h0 0 (by decide)
  have h2 := h sampleLayout dryInput twoThreads ev ⟨rfl, by decide, by decide⟩
    (fun b _ => dryInput_physical b) hev (sampleLayout.numSpecies + 0)
  have h3 := dryInput_condenses 0 0 (by omega) (by omega)
  rw [h1] at h2
  have : (3 + 0 * 2 + 0 : ℕ) = sampleLayout.numSpecies + 0 := rfl
  rw [this, ← h2] at h3
  exact lt_irrefl _ h3

example : dmDt sampleLayout dryInput 1 (0 + 1) ≠ 0 := by
  have h := dryInput_condenses 0 0 (by omega) (by omega)
  have e := partition_slot sampleLayout dryInput 0 0 (by decide) (by decide)
  have : (3 + 0 * 2 + 0 : ℕ) = sampleLayout.numSpecies + 0 * sampleLayout.numCond + 0 := rfl
  rw [this, e] at h
  exact h.ne'

/-! ## Private indices -/

/-- Storage when `index1` and `index2` are private: one copy per thread. -/
structure PrivateShared where
  index1 : ℕ → ℕ
  index2 : ℕ → ℕ
  dyDt : ℕ → ℝ

/-- The same statements with `index1` and `index2` added to the `PRIVATE`
clause (not what the code does). -/
def stepPrivate (L : Layout) (thr : ℕ → ℕ) (dm : ℕ → ℕ → ℝ) (s : PrivateShared) :
    Event → PrivateShared
  | ⟨b, .setIndex1⟩ => { s with index1 := Function.update s.index1 (thr b) (firstIndex L b) }
  | ⟨b, .setIndex2⟩ => { s with index2 := Function.update s.index2 (thr b) (lastIndex L b) }
  | ⟨b, .writeSlice⟩ =>
    { s with dyDt := assignSlice s.dyDt (s.index1 (thr b)) (s.index2 (thr b)) (dm b) }

/-- Execution with private indices. -/
def runPrivate (L : Layout) (thr : ℕ → ℕ) (dm : ℕ → ℕ → ℝ) (ev : List Event)
    (s : PrivateShared) : PrivateShared :=
  ev.foldl (stepPrivate L thr dm) s

theorem runPrivate_snoc (L : Layout) (thr : ℕ → ℕ) (dm : ℕ → ℕ → ℝ) (ev : List Event) (e : Event)
    (s : PrivateShared) :
    runPrivate L thr dm (ev ++ [e]) s = stepPrivate L thr dm (runPrivate L thr dm ev s) e := by
  simp [runPrivate, List.foldl_append]

theorem private_index1 (L : Layout) (thr : ℕ → ℕ) (dm : ℕ → ℕ → ℝ) (ev : List Event)
    (s : PrivateShared) (t b : ℕ)
    (h : lastBin .setIndex1 (ev.filter (fun e => thr e.bin = t)) = some b) :
    (runPrivate L thr dm ev s).index1 t = firstIndex L b := by
  induction ev using List.reverseRecOn with
  | nil => simp [lastBin] at h
  | append_singleton ev e ih =>
    rw [runPrivate_snoc]
    obtain ⟨c, k⟩ := e
    by_cases hc : thr c = t
    · rw [List.filter_append, List.filter_cons_of_pos (by simpa using hc), List.filter_nil,
        lastBin_snoc] at h
      cases k
      · simp only [if_true, Option.some.injEq] at h
        subst h
        show Function.update _ (thr c) _ t = _
        rw [hc, Function.update_self]
      · simp only [reduceCtorEq, if_false] at h
        exact ih h
      · simp only [reduceCtorEq, if_false] at h
        exact ih h
    · rw [List.filter_append, List.filter_cons_of_neg (by simpa using hc), List.filter_nil,
        List.append_nil] at h
      cases k
      · show Function.update _ (thr c) _ t = _
        rw [Function.update_of_ne (Ne.symm hc)]
        exact ih h
      · exact ih h
      · exact ih h

theorem private_index2 (L : Layout) (thr : ℕ → ℕ) (dm : ℕ → ℕ → ℝ) (ev : List Event)
    (s : PrivateShared) (t b : ℕ)
    (h : lastBin .setIndex2 (ev.filter (fun e => thr e.bin = t)) = some b) :
    (runPrivate L thr dm ev s).index2 t = lastIndex L b := by
  induction ev using List.reverseRecOn with
  | nil => simp [lastBin] at h
  | append_singleton ev e ih =>
    rw [runPrivate_snoc]
    obtain ⟨c, k⟩ := e
    by_cases hc : thr c = t
    · rw [List.filter_append, List.filter_cons_of_pos (by simpa using hc), List.filter_nil,
        lastBin_snoc] at h
      cases k
      · simp only [reduceCtorEq, if_false] at h
        exact ih h
      · simp only [if_true, Option.some.injEq] at h
        subst h
        show Function.update _ (thr c) _ t = _
        rw [hc, Function.update_self]
      · simp only [reduceCtorEq, if_false] at h
        exact ih h
    · rw [List.filter_append, List.filter_cons_of_neg (by simpa using hc), List.filter_nil,
        List.append_nil] at h
      cases k
      · exact ih h
      · show Function.update _ (thr c) _ t = _
        rw [Function.update_of_ne (Ne.symm hc)]
        exact ih h
      · exact ih h

theorem before_write (l : List ℕ) (pre post : List Event) (b : ℕ)
    (h : l.flatMap (fun k => binEvents (k + 1)) = pre ++ ⟨b, .writeSlice⟩ :: post) :
    ∃ pre0, pre = pre0 ++ [⟨b, .setIndex1⟩, ⟨b, .setIndex2⟩] := by
  induction l generalizing pre with
  | nil => simp at h
  | cons a l ih =>
    rw [List.flatMap_cons] at h
    rcases pre with _ | ⟨p1, pre⟩
    · simp [binEvents] at h
    rcases pre with _ | ⟨p2, pre⟩
    · simp [binEvents] at h
    rcases pre with _ | ⟨p3, pre⟩
    · simp [binEvents] at h
      obtain ⟨rfl, rfl, rfl, _⟩ := h
      exact ⟨[], rfl⟩
    · simp [binEvents] at h
      obtain ⟨rfl, rfl, rfl, h⟩ := h
      obtain ⟨pre0, rfl⟩ := ih pre (by simpa [binEvents] using h)
      exact ⟨_ :: _ :: _ :: pre0, rfl⟩

theorem filter_flatMap_bins (thr : ℕ → ℕ) (t : ℕ) (l : List ℕ) :
    (l.flatMap (fun k => binEvents (k + 1))).filter (fun e => thr e.bin = t)
      = (l.filter (fun k => thr (k + 1) = t)).flatMap (fun k => binEvents (k + 1)) := by
  induction l with
  | nil => rfl
  | cons a l ih =>
    rw [List.flatMap_cons, List.filter_append, ih]
    by_cases h : thr (a + 1) = t
    · rw [List.filter_cons_of_pos (by simpa using h), List.flatMap_cons]
      congr 1
      simp [binEvents, h]
    · rw [List.filter_cons_of_neg (by simpa using h)]
      simp [binEvents, h]

theorem interleaving_before_write {n : ℕ} {thr : ℕ → ℕ} {ev : List Event}
    (h : Interleaving n thr ev) (pre post : List Event) (b : ℕ)
    (he : ev = pre ++ ⟨b, .writeSlice⟩ :: post) :
    ∃ pre0, pre.filter (fun e => thr e.bin = thr b)
      = pre0 ++ [⟨b, .setIndex1⟩, ⟨b, .setIndex2⟩] := by
  have h1 := h (thr b)
  rw [serialEvents, filter_flatMap_bins, he, List.filter_append,
    List.filter_cons_of_pos (by simp)] at h1
  exact before_write _ _ _ b h1.symm

theorem interleaving_mem {n : ℕ} {thr : ℕ → ℕ} {ev : List Event}
    (h : Interleaving n thr ev) (e : Event) : e ∈ ev ↔ e ∈ serialEvents n := by
  have h1 := h (thr e.bin)
  have : ∀ l : List Event, e ∈ l ↔ e ∈ l.filter (fun e' => thr e'.bin = thr e.bin) := by
    intro l; simp [List.mem_filter]
  rw [this ev, this (serialEvents n), h1]

theorem mem_serialEvents (n : ℕ) (e : Event) :
    e ∈ serialEvents n ↔ 1 ≤ e.bin ∧ e.bin ≤ n := by
  constructor
  · intro he
    obtain ⟨k, hk, hke⟩ := List.mem_flatMap.1 he
    have := List.mem_range.1 hk
    have : e.bin = k + 1 := by
      simp only [binEvents, List.mem_cons, List.not_mem_nil, or_false] at hke
      rcases hke with rfl | rfl | rfl <;> rfl
    omega
  · rintro ⟨h1, h2⟩
    refine List.mem_flatMap.2 ⟨e.bin - 1, List.mem_range.2 (by omega), ?_⟩
    obtain ⟨b, k⟩ := e
    have : b - 1 + 1 = b := by simp only at h1; omega
    simp only [this]
    cases k <;> simp [binEvents]

theorem private_slot (L : Layout) (thr : ℕ → ℕ) (dm : ℕ → ℕ → ℝ) (s : PrivateShared)
    (ev : List Event)
    (hsync : ∀ pre b post, ev = pre ++ ⟨b, .writeSlice⟩ :: post →
      ∃ pre0, pre.filter (fun e => thr e.bin = thr b)
        = pre0 ++ [⟨b, .setIndex1⟩, ⟨b, .setIndex2⟩])
    (hpos : ∀ e ∈ ev, 1 ≤ e.bin) :
    (∀ b j, j < L.numCond →
      (runPrivate L thr dm ev s).dyDt (L.numSpecies + b * L.numCond + j + 1)
        = if (⟨b + 1, .writeSlice⟩ : Event) ∈ ev then dm (b + 1) (j + 1)
          else s.dyDt (L.numSpecies + b * L.numCond + j + 1)) ∧
    (∀ i ≤ L.numSpecies, (runPrivate L thr dm ev s).dyDt i = s.dyDt i) := by
  induction ev using List.reverseRecOn with
  | nil => simp [runPrivate]
  | append_singleton ev e ih =>
    obtain ⟨ih1, ih2⟩ := ih
      (fun pre b post he => hsync pre b (post ++ [e]) (by rw [he]; simp))
      (fun e' he' => hpos e' (by simp [he']))
    rw [runPrivate_snoc]
    obtain ⟨c, k⟩ := e
    cases k
    · refine ⟨fun b j hj => ?_, ih2⟩
      have := ih1 b j hj
      simp only [List.mem_append, List.mem_singleton, Event.mk.injEq, reduceCtorEq, and_false,
        or_false]
      exact this
    · refine ⟨fun b j hj => ?_, ih2⟩
      have := ih1 b j hj
      simp only [List.mem_append, List.mem_singleton, Event.mk.injEq, reduceCtorEq, and_false,
        or_false]
      exact this
    · obtain ⟨pre0, hp⟩ := hsync ev c [] rfl
      have hc : 1 ≤ c := hpos ⟨c, .writeSlice⟩ (by simp)
      have hl1 : lastBin .setIndex1 (ev.filter (fun e => thr e.bin = thr c)) = some c := by
        rw [hp, show pre0 ++ [(⟨c, .setIndex1⟩ : Event), ⟨c, .setIndex2⟩]
          = (pre0 ++ [⟨c, .setIndex1⟩]) ++ [⟨c, .setIndex2⟩] by simp, lastBin_snoc, lastBin_snoc]
        simp
      have hl2 : lastBin .setIndex2 (ev.filter (fun e => thr e.bin = thr c)) = some c := by
        rw [hp, show pre0 ++ [(⟨c, .setIndex1⟩ : Event), ⟨c, .setIndex2⟩]
          = (pre0 ++ [⟨c, .setIndex1⟩]) ++ [⟨c, .setIndex2⟩] by simp, lastBin_snoc]
        simp
      obtain ⟨c, rfl⟩ : ∃ d, c = d + 1 := ⟨c - 1, by omega⟩
      constructor
      · intro b j hj
        show assignSlice (runPrivate L thr dm ev s).dyDt _ _ (dm (c + 1)) _ = _
        rw [private_index1 L thr dm ev s _ _ hl1, private_index2 L thr dm ev s _ _ hl2]
        by_cases hcb : c = b
        · subst hcb
          rw [assign_own L _ _ hj, if_pos (by simp)]
        · rw [assign_other L _ _ hj hcb, ih1 b j hj]
          have : ((⟨b + 1, .writeSlice⟩ : Event) ∈ ev ++ [⟨c + 1, .writeSlice⟩]) ↔
              (⟨b + 1, .writeSlice⟩ : Event) ∈ ev := by
            simp only [List.mem_append, List.mem_singleton, Event.mk.injEq, and_true]
            constructor
            · rintro (h | h)
              · exact h
              · omega
            · exact Or.inl
          by_cases hm : (⟨b + 1, .writeSlice⟩ : Event) ∈ ev
          · rw [if_pos hm, if_pos (this.2 hm)]
          · rw [if_neg hm, if_neg (fun h => hm (this.1 h))]
      · intro i hi
        show assignSlice (runPrivate L thr dm ev s).dyDt _ _ (dm (c + 1)) _ = _
        rw [private_index1 L thr dm ev s _ _ hl1, private_index2 L thr dm ev s _ _ hl2,
          assign_gas L _ _ hi, ih2 i hi]

/-- The missing clause is the whole problem: with `index1` and `index2` private,
every order of execution by any number of threads leaves in `dy_dt` what one
thread leaves there. -/
theorem C51_private_repair (L : Layout) (dm : ℕ → ℕ → ℝ) (thr : ℕ → ℕ) (ev : List Event)
    (h : Interleaving L.numBins thr ev) (s : PrivateShared) (s' : Shared)
    (hs : s.dyDt = s'.dyDt) :
    ∀ i < L.numSpecies + L.numBins * L.numCond,
      (runPrivate L thr dm ev s).dyDt (i + 1)
        = (runEvents L dm (serialEvents L.numBins) s').dyDt (i + 1) := by
  intro i hi
  have hp := private_slot L thr dm s ev (fun pre b post he => interleaving_before_write h pre post b he)
    (fun e he => ((mem_serialEvents _ e).1 ((interleaving_mem h e).1 he)).1)
  rcases C38_layout L.numSpecies L.numCond L.numBins i hi with ⟨hi', _⟩ | ⟨_, ⟨b, j⟩, ⟨hb, hj, he⟩, _⟩
  · rw [hp.2 _ (by omega), serial_gas L _ _ _ _ (by omega), hs]
  · simp only at hb hj he
    subst he
    rw [hp.1 b j hj, serial_slot L _ _ _ b j hj, if_pos hb, if_pos]
    exact (interleaving_mem h _).2 ((mem_serialEvents _ _).2 ⟨by simp, by simpa using hb⟩)

example : Interleaving 2 twoThreads (racyEvents 0) := racy_interleaving 0

end PyBox
