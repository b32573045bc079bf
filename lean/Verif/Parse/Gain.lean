import Verif.Parse.Tables
import Mathlib.Algebra.Order.Ring.Rat

/-!
# Exactly what the gain table records
-/

namespace PyBox
namespace Spec

/-- Products up to and including the first one named `L`, and the products after it. -/
def upTo (L : Str) : List (ℚ × Str) → List (ℚ × Str) × List (ℚ × Str)
  | [] => ([], [])
  | p :: ps => if p.2 = L then ([p], ps) else (p :: (upTo L ps).1, (upTo L ps).2)

/-- Coefficient of the last term with a given name. -/
def lastCoef (ps : List (ℚ × Str)) (s : Str) : ℚ :=
  (((ps.filter (fun p => p.2 = s)).getLast?).map (·.1)).getD 0

/-- Chemical products of a reaction: the terms that are not photons. -/
def chemProducts (q : RawEqn) : List (ℚ × Str) := q.products.filter (fun p => p.2 ≠ hv)

/-- Chemical reactants of a reaction. -/
def chemReactants (q : RawEqn) : List (ℚ × Str) := q.reactants.filter (fun p => p.2 ≠ hv)

/-- Name written last on the left-hand side. -/
def lastName (q : RawEqn) : Str := ((q.reactants.getLast?).map (·.2)).getD []

/-- The shape of a reaction for which the parser records its products correctly: up to the first
product that repeats the last reactant no product is repeated, and after it nothing new comes. -/
def GainGood (q : RawEqn) : Prop :=
  (names (upTo (lastName q) (chemProducts q)).1).Nodup ∧
  ∀ p ∈ (upTo (lastName q) (chemProducts q)).2, p.2 ∈ names (upTo (lastName q) (chemProducts q)).1

instance (q : RawEqn) : Decidable (GainGood q) := by unfold GainGood; infer_instance

theorem upTo_append (L : Str) (ps : List (ℚ × Str)) : (upTo L ps).1 ++ (upTo L ps).2 = ps := by
  induction ps with
  | nil => rfl
  | cons p ps ih =>
    unfold upTo
    split
    · rfl
    · simp [ih]

theorem lastCoef_append (ps : List (ℚ × Str)) (p : ℚ × Str) (s : Str) :
    lastCoef (ps ++ [p]) s = if p.2 = s then p.1 else lastCoef ps s := by
  unfold lastCoef
  by_cases h : p.2 = s <;> simp [h]

theorem lastCoef_cons (p : ℚ × Str) (ps : List (ℚ × Str)) (s : Str) :
    lastCoef (p :: ps) s = if s ∈ names ps then lastCoef ps s else if p.2 = s then p.1 else 0 := by
  unfold lastCoef
  by_cases hm : s ∈ names ps
  · have hne : ps.filter (fun p => p.2 = s) ≠ [] := by
      intro h
      simp only [names, List.mem_map] at hm
      obtain ⟨q, hq, rfl⟩ := hm
      rw [List.filter_eq_nil_iff] at h
      exact h q hq (by simp)
    by_cases h : p.2 = s
    · rw [List.filter_cons_of_pos (by simp [h])]
      obtain ⟨l, x, hx⟩ : ∃ l x, ps.filter (fun p => p.2 = s) = l ++ [x] :=
        ⟨_, _, (List.dropLast_append_getLast hne).symm⟩
      simp only [hm, hx, if_true]
      rw [← List.cons_append, List.getLast?_append, List.getLast?_append]
      simp
    · rw [List.filter_cons_of_neg (by simp [h])]
      simp [hm]
  · have hnil : ps.filter (fun p => p.2 = s) = [] := by
      rw [List.filter_eq_nil_iff]
      intro q hq
      simp only [decide_eq_true_eq]
      intro e
      exact hm (List.mem_map.2 ⟨q, hq, e⟩)
    by_cases h : p.2 = s
    · simp [hm, h, hnil]
    · simp [hm, h, hnil]

end Spec

open Spec

theorem gainStep_none {L : Str} {g : Str → Option ℚ} (h : g L = none) (p : ℚ × Str) :
    gainStep L g p = fun s => if s = p.2 then some p.1 else g s := by
  funext s; simp [gainStep, h]

theorem gainStep_some {L : Str} {g : Str → Option ℚ} {v : ℚ} (h : g L = some v) (p : ℚ × Str) :
    gainStep L g p = fun s => if s = p.2 then (g p.2).map (· + p.1) else g s := by
  funext s; simp [gainStep, h]

/-- After the last reactant has been recorded as a product, known names accumulate and new names
are dropped. -/
theorem fold_gainStep_some (L : Str) (ps : List (ℚ × Str)) : ∀ (g : Str → Option ℚ),
    (g L).isSome → ∀ s, ps.foldl (gainStep L) g s = (g s).map (· + coef ps s) := by
  induction ps with
  | nil => intro g _ s; cases h : g s <;> simp [h]
  | cons p ps ih =>
    intro g hL s
    obtain ⟨v, hv⟩ := Option.isSome_iff_exists.1 hL
    rw [List.foldl_cons, gainStep_some hv, ih]
    · rw [coef_cons]
      by_cases h : s = p.2
      · subst h
        simp only [if_true, Option.map_map]
        congr 1
        funext x
        simp only [Function.comp_apply]
        ring
      · simp [h, Ne.symm (show s ≠ p.2 from h)]
    · split
      · rename_i h; rw [← h, hv]; rfl
      · exact hL

/-- Before that, each product overwrites. -/
theorem fold_gainStep_none (L : Str) (ps : List (ℚ × Str)) : ∀ (g : Str → Option ℚ), g L = none →
    ∀ s, ps.foldl (gainStep L) g s =
      if s ∈ names (upTo L ps).1 then
        some (lastCoef (upTo L ps).1 s + coef (upTo L ps).2 s)
      else (g s).map (· + coef (upTo L ps).2 s) := by
  induction ps with
  | nil => intro g _ s; cases h : g s <;> simp [upTo, names, h]
  | cons p ps ih =>
    intro g hL s
    rw [List.foldl_cons, gainStep_none hL]
    by_cases hp : p.2 = L
    · rw [fold_gainStep_some]
      · have hu : upTo L (p :: ps) = ([p], ps) := by simp [upTo, hp]
        rw [hu]
        by_cases hs : s = p.2
        · subst hs
          simp [names, lastCoef]
        · simp [names, hs]
      · simp [hp]
    · have hu : upTo L (p :: ps) = (p :: (upTo L ps).1, (upTo L ps).2) := by
        conv_lhs => rw [upTo]
        simp [hp]
      rw [ih _ (by simp [Ne.symm hp, hL]), hu]
      dsimp only
      rw [lastCoef_cons]
      by_cases hm : s ∈ names (upTo L ps).1
      · have : s ∈ names (p :: (upTo L ps).1) := by
          simp only [names, List.map_cons, List.mem_cons] at hm ⊢; exact Or.inr hm
        simp [hm, this]
      · by_cases hs : s = p.2
        · subst hs
          have : p.2 ∈ names (p :: (upTo L ps).1) := by simp [names]
          simp [hm, this]
        · have : s ∉ names (p :: (upTo L ps).1) := by
            simp only [names, List.map_cons, List.mem_cons, not_or] at hm ⊢; exact ⟨hs, hm⟩
          simp [hm, this, hs]

theorem gainEntry_eq (q : RawEqn) (s : Str) :
    gainEntry q s =
      if s ∈ names (upTo (lastName q) (chemProducts q)).1 then
        some (lastCoef (upTo (lastName q) (chemProducts q)).1 s +
          coef (upTo (lastName q) (chemProducts q)).2 s)
      else none := by
  unfold gainEntry
  have h := fold_gainStep_none (lastReactant q) (nonHv q.products) (fun _ => none) rfl s
  simp only [Option.map_none] at h
  exact h

theorem lastCoef_eq_coef_of_nodup {ps : List (ℚ × Str)} (h : (names ps).Nodup) (s : Str) :
    lastCoef ps s = coef ps s := by
  induction ps with
  | nil => rfl
  | cons p ps ih =>
    simp only [names, List.map_cons, List.nodup_cons] at h
    rw [lastCoef_cons, coef_cons]
    by_cases hm : s ∈ names ps
    · have : ¬ p.2 = s := by rintro rfl; exact h.1 hm
      simp [hm, this, ih h.2]
    · simp [hm, coef_of_not_mem hm]

/-- For well-shaped reactions the gain table is right. -/
theorem gainEntry_of_good {q : RawEqn} (h : GainGood q) (s : Str) :
    gainEntry q s =
      if s ∈ names (chemProducts q) then some (coef (chemProducts q) s) else none := by
  rw [gainEntry_eq]
  have happ := upTo_append (lastName q) (chemProducts q)
  have hmem : s ∈ names (chemProducts q) ↔ s ∈ names (upTo (lastName q) (chemProducts q)).1 := by
    conv_lhs => rw [← happ]
    simp only [names, List.map_append, List.mem_append]
    constructor
    · rintro (h' | h')
      · exact h'
      · obtain ⟨p, hp, rfl⟩ := List.mem_map.1 h'
        exact h.2 p hp
    · exact Or.inl
  by_cases hm : s ∈ names (chemProducts q)
  · rw [if_pos (hmem.1 hm), if_pos hm, lastCoef_eq_coef_of_nodup h.1]
    conv_rhs => rw [← happ]
    rw [coef_append]
  · rw [if_neg (fun e => hm (hmem.2 e)), if_neg hm]

theorem lastCoef_le_coef {ps : List (ℚ × Str)} (hpos : ∀ p ∈ ps, 0 < p.1) (s : Str) :
    lastCoef ps s ≤ coef ps s ∧ 0 ≤ coef ps s := by
  induction ps with
  | nil => simp [lastCoef]
  | cons p ps ih =>
    have ih := ih (fun q hq => hpos q (List.mem_cons_of_mem _ hq))
    have hp := hpos p (List.mem_cons_self ..)
    rw [lastCoef_cons, coef_cons]
    by_cases hm : s ∈ names ps
    · simp only [hm, if_true]
      split <;> constructor <;> linarith [ih.1, ih.2]
    · rw [coef_of_not_mem hm]
      simp only [hm, if_false]
      split <;> constructor <;> linarith

theorem lastCoef_lt_of_dup {ps : List (ℚ × Str)} (hpos : ∀ p ∈ ps, 0 < p.1)
    (h : ¬ (names ps).Nodup) : ∃ s ∈ names ps, lastCoef ps s < coef ps s := by
  induction ps with
  | nil => simp [names] at h
  | cons p ps ih =>
    have hpos' : ∀ q ∈ ps, 0 < q.1 := fun q hq => hpos q (List.mem_cons_of_mem _ hq)
    have hp := hpos p (List.mem_cons_self ..)
    simp only [names, List.map_cons, List.nodup_cons, not_and_or, not_not] at h
    rcases h with h | h
    · refine ⟨p.2, by simp [names], ?_⟩
      rw [lastCoef_cons, coef_cons]
      have hm : p.2 ∈ names ps := h
      simp only [hm, if_true]
      have := (lastCoef_le_coef hpos' p.2).1
      linarith
    · obtain ⟨s, hs, hlt⟩ := ih hpos' h
      refine ⟨s, by simp only [names, List.map_cons, List.mem_cons] at hs ⊢; exact Or.inr hs, ?_⟩
      rw [lastCoef_cons, coef_cons]
      simp only [hs, if_true]
      split <;> linarith

/-- With positive coefficients the gain table is right only for well-shaped reactions. -/
theorem good_of_gainEntry {q : RawEqn} (hpos : ∀ p ∈ chemProducts q, 0 < p.1)
    (h : ∀ s, gainEntry q s =
      if s ∈ names (chemProducts q) then some (coef (chemProducts q) s) else none) : GainGood q := by
  have happ := upTo_append (lastName q) (chemProducts q)
  have hpos1 : ∀ p ∈ (upTo (lastName q) (chemProducts q)).1, 0 < p.1 := fun p hp =>
    hpos p (by rw [← happ]; exact List.mem_append_left _ hp)
  constructor
  · by_contra hn
    obtain ⟨s, hs, hlt⟩ := lastCoef_lt_of_dup hpos1 hn
    have hs' : s ∈ names (chemProducts q) := by
      rw [← happ]; simp only [names, List.map_append, List.mem_append] at hs ⊢; exact Or.inl hs
    have := h s
    rw [gainEntry_eq, if_pos hs, if_pos hs', Option.some.injEq] at this
    rw [← happ, coef_append] at this
    rw [happ] at this
    linarith
  · intro p hp
    by_contra hn
    have hs' : p.2 ∈ names (chemProducts q) := by
      rw [← happ]; simp only [names, List.map_append, List.mem_append]
      exact Or.inr (List.mem_map.2 ⟨p, hp, rfl⟩)
    have := h p.2
    rw [gainEntry_eq, if_neg hn, if_pos hs'] at this
    cases this

end PyBox
