import Verif.Props.Kinetic
import Verif.Props.AerosolRhs

/-!
# The products as the parser records them

`extract_mechanism` records a repeated product wrongly, and drops products (`C06_exact`). Here is the list of
products it does record, for every reaction, and how it compares with the products written in the file.
-/

namespace PyBox

open Set Spec

namespace Spec

/-- The products the parser records for a reaction. Up to the first product that repeats the last reactant a
product replaces an earlier one of the same name; after it, products already recorded are added to, and
others dropped. -/
def recordedProducts (q : RawEqn) : List (ℚ × Str) :=
  (names (upTo (lastName q) (chemProducts q)).1).dedup.map fun s =>
    (lastCoef (upTo (lastName q) (chemProducts q)).1 s + coef (upTo (lastName q) (chemProducts q)).2 s, s)

/-- The reaction the parser records. -/
def asRecorded (q : RawEqn) : RawEqn := { q with products := recordedProducts q }

/-- Every species that is not held constant has an entry in the tables (the condition of `C18_valid_iff`). -/
def AllWritten (m : Mechanism) : Prop :=
  ∀ s i, m.tables.index.get? s = some i → s ∉ heldConstant →
    ∃ e, cell m.tables.gain s e ≠ none ∨ cell m.tables.loss s e ≠ none

end Spec

theorem coef_map_nodup (f : Str → ℚ) (s : Str) : ∀ {l : List Str}, l.Nodup →
    coef (l.map fun x => (f x, x)) s = if s ∈ l then f s else 0
  | [], _ => rfl
  | a :: l, h => by
    rw [List.nodup_cons] at h
    rw [List.map_cons, coef_cons, coef_map_nodup f s h.2]
    by_cases ha : a = s
    · subst ha
      simp [h.1]
    · simp [ha, Ne.symm ha]

theorem names_recorded (q : RawEqn) :
    names (recordedProducts q) = (names (upTo (lastName q) (chemProducts q)).1).dedup := by
  unfold names recordedProducts
  rw [List.map_map]
  exact List.map_id _

theorem mem_names_recorded {q : RawEqn} {s : Str} :
    s ∈ names (recordedProducts q) ↔ s ∈ names (upTo (lastName q) (chemProducts q)).1 := by
  rw [names_recorded, List.mem_dedup]

theorem coef_recorded (q : RawEqn) (s : Str) :
    coef (recordedProducts q) s = (gainEntry q s).getD 0 := by
  unfold recordedProducts
  rw [coef_map_nodup (fun s => lastCoef (upTo (lastName q) (chemProducts q)).1 s +
    coef (upTo (lastName q) (chemProducts q)).2 s) s (List.nodup_dedup _), gainEntry_eq]
  by_cases hs : s ∈ names (upTo (lastName q) (chemProducts q)).1
  · rw [if_pos (List.mem_dedup.2 hs), if_pos hs]
    rfl
  · rw [if_neg (fun hc => hs (List.mem_dedup.1 hc)), if_neg hs]
    rfl

/-- The recorded products are products. -/
theorem recorded_mem {q : RawEqn} {s : Str} (h : s ∈ names (recordedProducts q)) : s ∈ names (chemProducts q) := by
  rw [mem_names_recorded] at h
  rw [← upTo_append (lastName q) (chemProducts q)]
  unfold names at h ⊢
  rw [List.map_append]
  exact List.mem_append_left _ h

theorem chemProducts_asRecorded (q : RawEqn) : chemProducts (asRecorded q) = recordedProducts q := by
  unfold chemProducts asRecorded
  rw [List.filter_eq_self]
  intro p hp
  have h := recorded_mem (q := q) (s := p.2) (List.mem_map.2 ⟨p, hp, rfl⟩)
  obtain ⟨p', hp', he⟩ := List.mem_map.1 h
  rw [← he]
  exact (List.mem_filter.1 hp').2

theorem chemReactants_asRecorded (q : RawEqn) : chemReactants (asRecorded q) = chemReactants q := rfl

theorem recorded_of_good {q : RawEqn} (h : GainGood q) (s : Str) :
    coef (recordedProducts q) s = coef (chemProducts q) s := by
  rw [coef_recorded, gainEntry_of_good h]
  split
  · rfl
  · rename_i hs
    rw [coef_of_not_mem hs]
    rfl

/-- With positive coefficients no more is recorded than is written. -/
theorem recorded_le {q : RawEqn} (hpos : ∀ p ∈ chemProducts q, 0 < p.1) (s : Str) :
    coef (recordedProducts q) s ≤ coef (chemProducts q) s := by
  have happ := upTo_append (lastName q) (chemProducts q)
  have h1 : ∀ p ∈ (upTo (lastName q) (chemProducts q)).1, 0 < p.1 := fun p hp =>
    hpos p (by rw [← happ]; exact List.mem_append_left _ hp)
  rw [coef_recorded, gainEntry_eq]
  split
  · have hc : coef (chemProducts q) s = coef (upTo (lastName q) (chemProducts q)).1 s +
        coef (upTo (lastName q) (chemProducts q)).2 s := by rw [← coef_append, happ]
    rw [hc, Option.getD_some]
    linarith [(lastCoef_le_coef h1 s).1]
  · exact coef_nonneg hpos s

section Mechanism

variable {text : Str} {m : Mechanism} {qs : List RawEqn}

/-- The weight of terms of a reaction, summed over the species of the mechanism. -/
theorem index_weight (h : extractMechanism text = .ok m) (hq : Reads text m.equations.toNat qs)
    {n : ℕ} {sp : Fin n → Str}
    (hsum : ∀ (w : Str → ℝ) (y : ℕ → ℝ), weightedTotal m w y = ∑ i, w (sp i) * y i) (w : Str → ℝ)
    {q : RawEqn} (hqm : q ∈ qs) {terms : List (ℚ × Str)} (ht : ∀ s ∈ names terms, s ∈ occurrences q) :
    ∑ i, w (sp i) * (coef terms (sp i) : ℝ) = weight w terms := by
  obtain ⟨h2, -⟩ := extract_tables h hq
  have hi := spInv_build qs
  have h1 := hsum (fun s => w s * (coef terms s : ℝ)) (fun _ => 1)
  simp only [mul_one] at h1
  rw [← h1, ← sum_coef w (registered qs) hi.nodup terms]
  · unfold weightedTotal
    rw [h2, hi.index_eq]
    congr 1
    conv_rhs => rw [← zipIdx_keys (registered qs)]
    unfold Dict.keys
    rw [List.map_map]
    refine List.map_congr_left fun p _ => ?_
    simp
  · intro s hs
    rw [mem_registered, allOccurrences, List.mem_flatMap]
    exact ⟨q, hqm, ht s hs⟩

/-- What the tables hold for a reaction. -/
theorem net_recorded (h : extractMechanism text = .ok m) (hq : Reads text m.equations.toNat qs) {e : ℕ} {q : RawEqn}
    (he : qs[e]? = some q) (s : Str) :
    netRecorded m.tables s e = (coef (recordedProducts q) s : ℝ) - (coef (chemReactants q) s : ℝ) := by
  unfold netRecorded recorded
  rw [cell_gain h hq, C05_loss_coefficients h hq, he, Option.bind_some, Option.bind_some, coef_recorded]
  congr 2
  split
  · rfl
  · rename_i hs
    rw [coef_of_not_mem hs]
    rfl

/-- A weighted total of the recorded changes of a reaction, for every reaction. -/
theorem recorded_weight (h : extractMechanism text = .ok m) (hq : Reads text m.equations.toNat qs)
    {n : ℕ} {sp : Fin n → Str}
    (hsum : ∀ (w : Str → ℝ) (y : ℕ → ℝ), weightedTotal m w y = ∑ i, w (sp i) * y i)
    (w : Str → ℝ) {e : ℕ} {q : RawEqn} (he : qs[e]? = some q) :
    ∑ i, w (sp i) * netRecorded m.tables (sp i) e
      = weight w (recordedProducts q) - weight w (chemReactants q) := by
  have hqm := List.mem_of_getElem? he
  rw [← index_weight h hq hsum w hqm (terms := recordedProducts q)
      (fun s hs => mem_occurrences_right (recorded_mem hs)),
    ← index_weight h hq hsum w hqm (terms := chemReactants q) (fun s hs => mem_occurrences_left hs),
    ← Finset.sum_sub_distrib]
  refine Finset.sum_congr rfl fun i _ => ?_
  rw [net_recorded h hq he, mul_sub]

theorem weight_good (h : extractMechanism text = .ok m) (hq : Reads text m.equations.toNat qs)
    {n : ℕ} {sp : Fin n → Str}
    (hsum : ∀ (w : Str → ℝ) (y : ℕ → ℝ), weightedTotal m w y = ∑ i, w (sp i) * y i)
    (w : Str → ℝ) {q : RawEqn} (hqm : q ∈ qs) (hg : GainGood q) :
    weight w (recordedProducts q) = weight w (chemProducts q) := by
  rw [← index_weight h hq hsum w hqm (terms := recordedProducts q)
      (fun s hs => mem_occurrences_right (recorded_mem hs)),
    ← index_weight h hq hsum w hqm (terms := chemProducts q) (fun s hs => mem_occurrences_right hs)]
  refine Finset.sum_congr rfl fun i _ => ?_
  rw [recorded_of_good hg]

theorem weight_le (h : extractMechanism text = .ok m) (hq : Reads text m.equations.toNat qs)
    {n : ℕ} {sp : Fin n → Str}
    (hsum : ∀ (w : Str → ℝ) (y : ℕ → ℝ), weightedTotal m w y = ∑ i, w (sp i) * y i)
    {w : Str → ℝ} (hw : ∀ s, 0 ≤ w s) {q : RawEqn} (hqm : q ∈ qs) (hpos : ∀ p ∈ chemProducts q, 0 < p.1) :
    weight w (recordedProducts q) ≤ weight w (chemProducts q) := by
  rw [← index_weight h hq hsum w hqm (terms := recordedProducts q)
      (fun s hs => mem_occurrences_right (recorded_mem hs)),
    ← index_weight h hq hsum w hqm (terms := chemProducts q) (fun s hs => mem_occurrences_right hs)]
  refine Finset.sum_le_sum fun i _ => mul_le_mul_of_nonneg_left ?_ (hw _)
  exact_mod_cast recorded_le hpos _

theorem allWritten_of_good (h : extractMechanism text = .ok m) (hq : Reads text m.equations.toNat qs)
    (hg : ∀ q ∈ qs, GainGood q) : AllWritten m := by
  refine (C18_valid_iff h ⟨fun _ => 0, fun _ => 0⟩ (fun _ => 0)).1 ?_
  rw [exec_isSome_iff]
  exact fun k rhs hm => (C18_valid_partial h hq hg k rhs hm).2 _

/-- The Python right-hand side is defined exactly if all species have entries. -/
theorem gasRhs_isSome_iff (h : extractMechanism text = .ok m) (k y : ℕ → ℝ) :
    (gasRhs m.tables m.equations.toNat k y).isSome ↔ AllWritten m := by
  obtain ⟨qs, hq, -⟩ := extract_reads h
  obtain ⟨P, hP, hex⟩ := C10_value h hq
  obtain ⟨f, hf, -⟩ := hex ⟨y, fun _ => 0⟩ (concOf m.tables y) (fun _ => 0) (concOf_holds m.tables y)
  unfold gasRhs
  rw [hP]
  dsimp only
  rw [hf, Option.bind_some]
  exact C18_valid_iff h _ _

end Mechanism

end PyBox
