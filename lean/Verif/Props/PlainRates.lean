import Verif.Props.Rates

/-!
# C28: the bracket step of the plain Python converter
-/

namespace PyBox

theorem findSub_first {w : Str} (hw : w ≠ []) (r : Str) : ∀ p : Str, ¬ w <:+: p ++ w.dropLast →
    findSub w (p ++ w ++ r) = some p.length := by
  intro p
  induction p with
  | nil =>
    intro _
    rw [List.nil_append]
    obtain ⟨a, w, rfl⟩ := List.exists_cons_of_ne_nil hw
    rw [List.cons_append, findSub, if_pos]
    · rfl
    · rw [List.isPrefixOf_iff_prefix]
      exact ⟨r, rfl⟩
  | cons c p ih =>
    intro h
    have h1 : ¬ w <:+: p ++ w.dropLast := fun h' => h (h'.trans (List.suffix_cons c _).isInfix)
    rw [List.cons_append, List.cons_append, findSub, if_neg, ih h1]
    · rfl
    · rw [List.isPrefixOf_iff_prefix]
      intro hp
      refine h (List.IsPrefix.isInfix (List.prefix_of_prefix_length_le hp (l₂ := c :: (p ++ w.dropLast)) ?_ ?_))
      · refine ⟨[w.getLast hw] ++ r, ?_⟩
        rw [List.cons_append, ← List.append_assoc, List.append_assoc p, List.dropLast_append_getLast hw]
      · simp only [List.length_cons, List.length_append, List.length_dropLast]
        omega

/-- C28, the unused plain Python converter: after the first occurrence of a function name the two brackets around an
argument without brackets are restored, and nothing else is changed, whatever brackets precede or follow. -/
theorem C28_plain_restored {w p a q : Str} (hw : w ≠ []) (hb : '[' ∉ w ∧ ']' ∉ w) (hfirst : ¬ w <:+: p ++ w.dropLast)
    (ha : '[' ∉ a ∧ ']' ∉ a) :
    restoreStep (p ++ w ++ '[' :: (a ++ ']' :: q)) w = p ++ w ++ '(' :: (a ++ ')' :: q) := by
  unfold restoreStep
  rw [findSub_first hw _ p hfirst]
  dsimp only
  have e1 : findFrom ['['] (p ++ w ++ '[' :: (a ++ ']' :: q)) p.length = some (p ++ w).length := by
    have := findFrom_append ['['] p (w ++ '[' :: (a ++ ']' :: q)) 0
    rw [Nat.zero_add, ← List.append_assoc] at this
    rw [this, findFrom, List.drop_zero, findSub_char_append hb.1]
    simp; omega
  have e2 : findFrom [']'] (p ++ w ++ '[' :: (a ++ ']' :: q)) p.length = some (p ++ w ++ '[' :: a).length := by
    have := findFrom_append [']'] p (w ++ '[' :: (a ++ ']' :: q)) 0
    rw [Nat.zero_add, ← List.append_assoc] at this
    have h3 : w ++ '[' :: (a ++ ']' :: q) = (w ++ '[' :: a) ++ ']' :: q := by simp
    have h4 : ']' ∉ w ++ '[' :: a := by
      rw [List.mem_append, List.mem_cons]
      rintro (h | h | h)
      · exact hb.2 h
      · exact absurd h (by decide)
      · exact ha.2 h
    rw [this, findFrom, List.drop_zero, h3, findSub_char_append h4]
    simp; omega
  rw [e1, e2]
  unfold pySet
  dsimp only
  rw [List.set_append_right _ _ le_rfl, Nat.sub_self, List.set_cons_zero]
  have h5 : p ++ w ++ '(' :: (a ++ ']' :: q) = (p ++ w ++ '(' :: a) ++ ']' :: q := by simp
  rw [h5, List.set_append_right _ _ (by simp), show (p ++ w ++ '[' :: a).length - (p ++ w ++ '(' :: a).length = 0 by simp,
    List.set_cons_zero]
  simp

example : convertPy "J(4)*EXP(-3/TEMP)*(A+B)".toList = "J[4]*numpy.exp(-3/TEMP)*[A+B]".toList ∧
    restoreStep "J[4]*numpy.exp[-3/TEMP]*[A+B]".toList "numpy.exp".toList = "J[4]*numpy.exp(-3/TEMP)*[A+B]".toList := by
  refine ⟨by decide +kernel, C28_plain_restored (w := "numpy.exp".toList) (p := "J[4]*".toList) (a := "-3/TEMP".toList)
    (q := "*[A+B]".toList) (by decide) (by decide) (by decide +kernel) (by decide)⟩

end PyBox
