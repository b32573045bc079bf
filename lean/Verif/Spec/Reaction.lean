import Verif.Parse.Model
import Mathlib.Tactic.Ring

/-!
# Specification vocabulary for reactions

Written against a reaction as a list of (coefficient, name) terms; independent of the tables built
by the parser.
-/

namespace PyBox.Spec

/-- Total coefficient with which a name occurs in a list of terms. -/
def coef (terms : List (ℚ × Str)) (s : Str) : ℚ := ((terms.filter (fun p => p.2 = s)).map (·.1)).sum

/-- Names of a list of terms, in order, with repetitions. -/
def names (terms : List (ℚ × Str)) : List Str := terms.map (·.2)

/-- Chemical species written in one reaction, in order, with repetitions; photons are not
species. -/
def occurrences (q : RawEqn) : List Str :=
  (names q.reactants ++ names q.products).filter (fun s => s ≠ hv)

/-- Chemical species written in a mechanism, in order, with repetitions. -/
def allOccurrences (qs : List RawEqn) : List Str := qs.flatMap occurrences

@[simp] theorem coef_nil (s : Str) : coef [] s = 0 := rfl

theorem coef_cons (p : ℚ × Str) (l : List (ℚ × Str)) (s : Str) :
    coef (p :: l) s = (if p.2 = s then p.1 else 0) + coef l s := by
  unfold coef
  by_cases h : p.2 = s <;> simp [h]

theorem coef_append (l m : List (ℚ × Str)) (s : Str) :
    coef (l ++ m) s = coef l s + coef m s := by
  induction l with
  | nil => simp
  | cons p l ih => rw [List.cons_append, coef_cons, coef_cons, ih]; ring

theorem coef_of_not_mem {l : List (ℚ × Str)} {s : Str} (h : s ∉ names l) : coef l s = 0 := by
  induction l with
  | nil => rfl
  | cons p l ih =>
    simp only [names, List.map_cons, List.mem_cons, not_or] at h
    rw [coef_cons, if_neg (fun e => h.1 e.symm), zero_add]
    exact ih h.2

end PyBox.Spec
