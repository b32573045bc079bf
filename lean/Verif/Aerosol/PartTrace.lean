import Verif.Aerosol.PartSteps
import Verif.Props.PartitionRace

/-!
# Orders of execution of the partitioning loop

What a possible order of the statements of a parallel loop (`Ft.Interleaved`) looks like before a given event, and
which events it has for the three statements that use `index1` and `index2`.
-/

namespace PyBox
namespace Ft

open Aerosol (Stage)

/-- The last event of a thread. -/
def lastOf (thr : ℕ → ℕ) (t : ℕ) (pre : List Event) : Option Event :=
  (pre.filter (fun e => decide (thr e.pass = t))).getLast?

theorem lastOf_snoc_self (thr : ℕ → ℕ) (pre : List Event) (e : Event) :
    lastOf thr (thr e.pass) (pre ++ [e]) = some e := by
  simp [lastOf, List.filter_append]

theorem lastOf_snoc_other {thr : ℕ → ℕ} {t : ℕ} (pre : List Event) {e : Event} (h : thr e.pass ≠ t) :
    lastOf thr t (pre ++ [e]) = lastOf thr t pre := by
  simp [lastOf, List.filter_append, h]

theorem lastOf_mem {thr : ℕ → ℕ} {t : ℕ} {pre : List Event} {e : Event} (h : lastOf thr t pre = some e) :
    e ∈ pre ∧ thr e.pass = t := by
  have := List.mem_of_getLast? h
  rw [List.mem_filter] at this
  exact ⟨this.1, by simpa using this.2⟩

theorem mem_allEvents {n first passes : ℕ} {e : Event} :
    e ∈ allEvents n first passes ↔ first ≤ e.pass ∧ e.pass < first + passes ∧ e.at_ ≤ n := by
  unfold allEvents passEvents
  rw [List.mem_flatMap]
  constructor
  · rintro ⟨k, hk, h⟩
    rw [List.mem_map] at h
    obtain ⟨j, hj, rfl⟩ := h
    rw [List.mem_range] at hk hj
    exact ⟨by simp, by simp; omega, by simp; omega⟩
  · rintro ⟨h1, h2, h3⟩
    refine ⟨e.pass - first, List.mem_range.mpr (by omega), List.mem_map.mpr ⟨e.at_, List.mem_range.mpr (by omega), ?_⟩⟩
    cases e
    simp only at *
    congr 1
    omega

theorem mem_interleaved {n first passes : ℕ} {thr : ℕ → ℕ} {tr : List Event} (h : Interleaved n first passes thr tr)
    (e : Event) : e ∈ tr ↔ e ∈ allEvents n first passes := by
  have := h (thr e.pass)
  constructor
  · intro he
    have h1 : e ∈ tr.filter (fun e' => decide (thr e'.pass = thr e.pass)) := List.mem_filter.mpr ⟨he, by simp⟩
    rw [this] at h1
    exact (List.mem_filter.mp h1).1
  · intro he
    have h1 : e ∈ (allEvents n first passes).filter (fun e' => decide (thr e'.pass = thr e.pass)) :=
      List.mem_filter.mpr ⟨he, by simp⟩
    rw [← this] at h1
    exact (List.mem_filter.mp h1).1

theorem filter_passes (n : ℕ) (thr : ℕ → ℕ) (t : ℕ) (l : List ℕ) :
    (l.flatMap (passEvents n)).filter (fun e => decide (thr e.pass = t)) =
      (l.filter (fun b => decide (thr b = t))).flatMap (passEvents n) := by
  induction l with
  | nil => rfl
  | cons a l ih =>
    rw [List.flatMap_cons, List.filter_append, ih, List.filter_cons]
    have hp : ∀ e ∈ passEvents n a, e.pass = a := by
      intro e he
      unfold passEvents at he
      rw [List.mem_map] at he
      obtain ⟨k, -, rfl⟩ := he
      rfl
    by_cases ha : thr a = t
    · rw [if_pos (by simpa using ha), List.flatMap_cons]
      congr 1
      rw [List.filter_eq_self]
      intro e he
      simp [hp e he, ha]
    · rw [if_neg (by simpa using ha)]
      have : (passEvents n a).filter (fun e => decide (thr e.pass = t)) = [] := by
        rw [List.filter_eq_nil_iff]
        intro e he
        simp [hp e he, ha]
      rw [this, List.nil_append]

theorem allEvents_flat (n first passes : ℕ) :
    allEvents n first passes = ((List.range passes).map (fun k => first + k)).flatMap (passEvents n) := by
  unfold allEvents
  rw [List.flatMap_map]

/-- Before a statement of a pass, the statement before it. -/
theorem before_event (n : ℕ) (l : List ℕ) (pre post : List Event) (e : Event)
    (h : l.flatMap (passEvents n) = pre ++ e :: post) :
    e.at_ = 0 ∨ pre.getLast? = some ⟨e.pass, e.at_ - 1⟩ := by
  induction l generalizing pre with
  | nil => simp at h
  | cons a l ih =>
    rw [List.flatMap_cons] at h
    rw [List.append_eq_append_iff] at h
    rcases h with ⟨q, hq, h⟩ | ⟨q, hq, h⟩
    · rcases ih q h with h' | h'
      · exact .inl h'
      · right
        rw [hq, List.getLast?_append, h']
        rfl
    · cases q with
      | nil =>
        rw [List.append_nil] at hq
        have := ih [] (by simpa using h.symm)
        rcases this with h' | h'
        · exact .inl h'
        · simp at h'
      | cons x q =>
        simp only [List.cons_append, List.cons.injEq] at h
        obtain ⟨rfl, -⟩ := h
        -- the event is in this pass
        have hk : pre.length < (passEvents n a).length := by rw [hq]; simp
        have he : (passEvents n a)[pre.length]'hk = e := by simp [hq]
        have hlen : pre.length < n + 1 := by simpa [passEvents] using hk
        have he' : e = ⟨a, pre.length⟩ := by rw [← he]; simp [passEvents]
        by_cases h0 : pre.length = 0
        · left; rw [he']; exact h0
        · right
          have hp : pre = (passEvents n a).take pre.length := by rw [hq]; simp
          rw [List.getLast?_eq_getElem?, List.getElem?_eq_getElem (by omega)]
          have h2 : pre[pre.length - 1]'(by omega) = (passEvents n a)[pre.length - 1]'(by omega) := by
            simp [hq, List.getElem_append_left (show pre.length - 1 < pre.length by omega)]
          rw [h2, he']
          simp [passEvents]

/-- What precedes an event in a possible order. -/
theorem interleaved_before {n first passes : ℕ} {thr : ℕ → ℕ} {pre post : List Event} {e : Event}
    (h : Interleaved n first passes thr (pre ++ e :: post)) :
    e.at_ = 0 ∨ lastOf thr (thr e.pass) pre = some ⟨e.pass, e.at_ - 1⟩ := by
  have h1 := h (thr e.pass)
  rw [List.filter_append, List.filter_cons, if_pos (by simp), allEvents_flat, filter_passes] at h1
  exact before_event n _ _ _ e h1.symm

theorem filter_one {l : List ℕ} (hl : l.Nodup) {m : ℕ} (hm : m ∈ l) : l.filter (fun k => decide (k = m)) = [m] := by
  induction l with
  | nil => simp at hm
  | cons a l ih =>
    rw [List.nodup_cons] at hl
    rw [List.filter_cons]
    by_cases ha : a = m
    · subst ha
      rw [if_pos (by simp)]
      congr 1
      rw [List.filter_eq_nil_iff]
      intro k hk
      simp only [decide_eq_true_eq]
      rintro rfl
      exact hl.1 hk
    · rw [if_neg (by simpa using ha)]
      rcases List.mem_cons.mp hm with h | h
      · exact absurd h.symm ha
      · exact ih hl.2 h

/-- The events of one pass. -/
theorem interleaved_pass {n first passes : ℕ} {thr : ℕ → ℕ} {tr : List Event} (h : Interleaved n first passes thr tr)
    {b : ℕ} (h1 : first ≤ b) (h2 : b < first + passes) : tr.filter (fun e => decide (e.pass = b)) = passEvents n b := by
  have hf : ∀ l : List Event, (l.filter (fun e => decide (thr e.pass = thr b))).filter (fun e => decide (e.pass = b)) =
      l.filter (fun e => decide (e.pass = b)) := by
    intro l
    rw [List.filter_filter]
    refine List.filter_congr (fun e _ => ?_)
    by_cases he : e.pass = b <;> simp [he]
  have h3 := filter_passes n (fun c => c) b ((List.range passes).map (fun k => first + k))
  rw [← hf, h (thr b), hf, allEvents_flat, h3, filter_one]
  · simp
  · exact List.Nodup.map (fun x y (h : first + x = first + y) => by omega) List.nodup_range
  · exact List.mem_map.mpr ⟨b - first, List.mem_range.mpr (by omega), by omega⟩

/-! ### The statements that use the shared indices -/

/-- Which of the three statements this is; `m` is the number of lines for the gases. -/
def stageOf (m k : ℕ) : Option Stage :=
  if k = m + 27 then some .setIndex1 else if k = m + 28 then some .setIndex2
  else if k = m + 29 then some .writeSlice else none

/-- An event as an event of `Aerosol/Partition.lean`. -/
def indexEvent (m : ℕ) (e : Event) : Option Aerosol.Event := (stageOf m e.at_).map (fun s => ⟨e.pass, s⟩)

/-- The events of these statements. -/
def indexEvents (m : ℕ) (tr : List Event) : List Aerosol.Event := tr.filterMap (indexEvent m)

theorem indexEvents_snoc (m : ℕ) (tr : List Event) (e : Event) :
    indexEvents m (tr ++ [e]) = indexEvents m tr ++ (indexEvent m e).toList := by
  unfold indexEvents
  rw [List.filterMap_append]
  congr 1

theorem indexEvents_pass (m b : ℕ) : indexEvents m (passEvents (m + 29) b) = Aerosol.binEvents b := by
  unfold indexEvents passEvents
  have h : List.range (m + 29 + 1) = List.range (m + 27) ++ [m + 27, m + 28, m + 29] := by
    simp [List.range_succ]
  rw [h, List.map_append, List.filterMap_append]
  have h0 : ((List.range (m + 27)).map (Event.mk b)).filterMap (indexEvent m) = [] := by
    rw [List.filterMap_eq_nil_iff]
    intro e he
    rw [List.mem_map] at he
    obtain ⟨k, hk, rfl⟩ := he
    have := List.mem_range.mp hk
    unfold indexEvent stageOf
    simp only
    rw [if_neg (by omega), if_neg (by omega), if_neg (by omega)]
    rfl
  rw [h0]
  simp [indexEvent, stageOf, Aerosol.binEvents]

theorem indexEvents_all (m passes : ℕ) :
    indexEvents m (allEvents (m + 29) 1 passes) = Aerosol.serialEvents passes := by
  unfold allEvents Aerosol.serialEvents
  generalize List.range passes = l
  induction l with
  | nil => rfl
  | cons a l ih =>
    rw [List.flatMap_cons, List.flatMap_cons, ← ih]
    unfold indexEvents
    rw [List.filterMap_append, Nat.add_comm a 1]
    congr 1
    exact indexEvents_pass m (1 + a)

theorem indexEvents_filter (m : ℕ) (thr : ℕ → ℕ) (t : ℕ) (tr : List Event) :
    (indexEvents m tr).filter (fun e => decide (thr e.bin = t)) =
      indexEvents m (tr.filter (fun e => decide (thr e.pass = t))) := by
  induction tr with
  | nil => rfl
  | cons e tr ih =>
    have hc : ∀ (e : Event) (l : List Event), indexEvents m (e :: l) = (indexEvent m e).toList ++ indexEvents m l := by
      intro e l
      unfold indexEvents
      cases h : indexEvent m e <;> simp [h]
    rw [hc, List.filter_append, ih, List.filter_cons]
    by_cases he : thr e.pass = t
    · rw [if_pos (by simpa using he), hc]
      congr 1
      rw [List.filter_eq_self]
      intro e' h'
      unfold indexEvent at h'
      cases hs : stageOf m e.at_ <;> simp [hs] at h'
      subst h'
      simpa using he
    · rw [if_neg (by simpa using he)]
      have : (indexEvent m e).toList.filter (fun e => decide (thr e.bin = t)) = [] := by
        rw [List.filter_eq_nil_iff]
        intro e' h'
        unfold indexEvent at h'
        cases hs : stageOf m e.at_ <;> simp [hs] at h'
        subst h'
        simpa using he
      rw [this, List.nil_append]

/-- Possible orders here are possible orders there. -/
theorem indexEvents_interleaving {m passes : ℕ} {thr : ℕ → ℕ} {tr : List Event}
    (h : Interleaved (m + 29) 1 passes thr tr) : Spec.Interleaving passes thr (indexEvents m tr) := by
  intro t
  rw [indexEvents_filter, h t, ← indexEvents_all m passes, indexEvents_filter]

/-- Events of the whole pass for an event there. -/
def expand (m : ℕ) : Aerosol.Event → List Event
  | ⟨b, .setIndex1⟩ => (List.range (m + 28)).map (Event.mk b)
  | ⟨b, .setIndex2⟩ => [⟨b, m + 28⟩]
  | ⟨b, .writeSlice⟩ => [⟨b, m + 29⟩]

theorem expand_pass (m : ℕ) (e : Aerosol.Event) : ∀ x ∈ expand m e, x.pass = e.bin := by
  obtain ⟨b, s⟩ := e
  cases s <;> simp [expand]

theorem indexEvents_expand (m : ℕ) (e : Aerosol.Event) : indexEvents m (expand m e) = [e] := by
  obtain ⟨b, s⟩ := e
  cases s
  · show ((List.range (m + 27 + 1)).map (Event.mk b)).filterMap (indexEvent m) = _
    rw [List.range_succ, List.map_append, List.filterMap_append]
    have h0 : ((List.range (m + 27)).map (Event.mk b)).filterMap (indexEvent m) = [] := by
      rw [List.filterMap_eq_nil_iff]
      intro e he
      rw [List.mem_map] at he
      obtain ⟨k, hk, rfl⟩ := he
      have := List.mem_range.mp hk
      unfold indexEvent stageOf
      simp only
      rw [if_neg (by omega), if_neg (by omega), if_neg (by omega)]
      rfl
    rw [h0]
    simp [indexEvent, stageOf]
  · simp [expand, indexEvents, indexEvent, stageOf]
  · simp [expand, indexEvents, indexEvent, stageOf]

theorem expand_serial (m passes : ℕ) :
    (Aerosol.serialEvents passes).flatMap (expand m) = allEvents (m + 29) 1 passes := by
  unfold allEvents Aerosol.serialEvents
  generalize List.range passes = l
  induction l with
  | nil => rfl
  | cons a l ih =>
    rw [List.flatMap_cons, List.flatMap_cons, List.flatMap_append, ih]
    congr 1
    simp [Aerosol.binEvents, expand, passEvents, List.range_succ, Nat.add_comm a 1]

theorem expand_filter (m : ℕ) (thr : ℕ → ℕ) (t : ℕ) (ev : List Aerosol.Event) :
    (ev.flatMap (expand m)).filter (fun e => decide (thr e.pass = t)) =
      (ev.filter (fun e => decide (thr e.bin = t))).flatMap (expand m) := by
  induction ev with
  | nil => rfl
  | cons a l ih =>
    rw [List.flatMap_cons, List.filter_append, ih, List.filter_cons]
    by_cases ha : thr a.bin = t
    · rw [if_pos (by simpa using ha), List.flatMap_cons]
      congr 1
      rw [List.filter_eq_self]
      intro e he
      simp [expand_pass m a e he, ha]
    · rw [if_neg (by simpa using ha)]
      have : (expand m a).filter (fun e => decide (thr e.pass = t)) = [] := by
        rw [List.filter_eq_nil_iff]
        intro e he
        simp [expand_pass m a e he, ha]
      rw [this, List.nil_append]

/-- Every possible order there comes from a possible order here. -/
theorem interleaving_lift (m : ℕ) {passes : ℕ} {thr : ℕ → ℕ} {ev : List Aerosol.Event}
    (h : Spec.Interleaving passes thr ev) :
    ∃ tr, Interleaved (m + 29) 1 passes thr tr ∧ indexEvents m tr = ev := by
  refine ⟨ev.flatMap (expand m), fun t => ?_, ?_⟩
  · rw [expand_filter, h t, ← expand_serial, expand_filter]
  · clear h
    induction ev with
    | nil => rfl
    | cons a l ih =>
      rw [List.flatMap_cons]
      unfold indexEvents at ih ⊢
      rw [List.filterMap_append, ih]
      exact congrArg (· ++ l) (indexEvents_expand m a)

end Ft
end PyBox
