import Verif.Rate.Brackets
import Verif.Parse.Model
import Mathlib.Tactic.NormNum
import Mathlib.Tactic.IntervalCases

/-!
# C25–C29: conversion of rate expressions
-/

namespace PyBox

/-! ### Where a word can come from -/

theorem infix_of_append {w x t : Str} (hw : w ≠ []) (hx : ∀ c ∈ x, c ∉ w) (h : w <:+: x ++ t) :
    w <:+: t := by
  induction x with
  | nil => exact h
  | cons a x ih =>
    rw [List.cons_append, List.infix_cons_iff] at h
    rcases h with h | h
    · obtain ⟨c, w', rfl⟩ := List.exists_cons_of_ne_nil hw
      rw [List.cons_prefix_cons] at h
      exact absurd (h.1 ▸ List.mem_cons_self ..) (hx a (List.mem_cons_self ..))
    · exact ih (fun c hc => hx c (List.mem_cons_of_mem _ hc)) h

theorem prefix_of_replaceAll {old new : Str} (hne : old ≠ []) (hnn : new ≠ []) : ∀ (s w : Str),
    (∀ c ∈ new, c ∉ w) → w <+: replaceAll old new s → w <+: s := by
  refine replace_induct hne ?_ ?_ ?_
  · intro w _ h; exact h
  · intro s _ w hw h
    rw [replaceAll_match hne] at h
    cases w with
    | nil => exact List.nil_prefix
    | cons c w =>
      obtain ⟨x, n, rfl⟩ := List.exists_cons_of_ne_nil hnn
      rw [List.cons_append, List.cons_prefix_cons] at h
      exact absurd (h.1 ▸ List.mem_cons_self ..) (hw x (List.mem_cons_self ..))
  · intro a s hp ih w hw h
    rw [replaceAll_copy hp] at h
    cases w with
    | nil => exact List.nil_prefix
    | cons c w =>
      rw [List.cons_prefix_cons] at h ⊢
      exact ⟨h.1, ih w (fun x hx hm => hw x hx (List.mem_cons_of_mem _ hm)) h.2⟩

/-- A word that shares no character with the replacement text was there before. -/
theorem infix_of_replaceAll {old new w : Str} (hne : old ≠ []) (hnn : new ≠ []) (hw : w ≠ [])
    (hd : ∀ c ∈ new, c ∉ w) : ∀ s : Str, w <:+: replaceAll old new s → w <:+: s := by
  refine replace_induct hne ?_ ?_ ?_
  · intro h; exact h
  · intro s ih h
    rw [replaceAll_match hne] at h
    exact (ih (infix_of_append hw hd h)).trans (List.suffix_append _ _).isInfix
  · intro a s hp ih h
    rw [replaceAll_copy hp, List.infix_cons_iff] at h
    rcases h with h | h
    · rw [← replaceAll_copy (new := new) hp] at h
      exact (prefix_of_replaceAll hne hnn _ w hd h).isInfix
    · exact (ih h).trans (List.suffix_cons _ _).isInfix

/-- After a replacement whose new text shares no character with the pattern, the pattern is gone. -/
theorem replaceAll_gone {old new : Str} (hne : old ≠ []) (hnn : new ≠ []) (hd : ∀ c ∈ new, c ∉ old) :
    ∀ s : Str, ¬ old <:+: replaceAll old new s := by
  refine replace_induct hne ?_ ?_ ?_
  · intro h
    exact hne (List.infix_nil.1 h)
  · intro s ih h
    rw [replaceAll_match hne] at h
    exact ih (infix_of_append hne hd h)
  · intro a s hp ih h
    rw [replaceAll_copy hp, List.infix_cons_iff] at h
    rcases h with h | h
    · rw [← replaceAll_copy (new := new) hp] at h
      exact hp (prefix_of_replaceAll hne hnn _ old hd h)
    · exact ih h

theorem rule_chars {c : Char} {t : Str} (h : exponentRule c = some t) : ∀ x ∈ t, x = 'E' ∨ x = '+' := by
  unfold exponentRule at h
  split at h
  · injection h with h; subst h; simp
  · split at h
    · injection h with h; subst h; simp
    · cases h

theorem rule_head {c : Char} {t : Str} (h : exponentRule c = some t) :
    t.head? = some 'E' ∧ 'D' ∉ t := by
  unfold exponentRule at h
  split at h
  · injection h with h; subst h; decide
  · split at h
    · injection h with h; subst h; decide
    · cases h

theorem fixD_piece (f : Char → Option Str) (a : Char) (s : Str)
    (hf : ∀ c t, f c = some t → ∀ x ∈ t, x = 'E' ∨ x = '+') :
    (a ≠ 'D' ∧ fixD f (a :: s) = a :: fixD f s) ∨
      (a = 'D' ∧ ∃ t, fixD f (a :: s) = t ++ fixD f s ∧ ∀ x ∈ t, x = 'D' ∨ x = 'E' ∨ x = '+') := by
  by_cases ha : a = 'D'
  · right
    refine ⟨ha, _, by rw [fixD], ?_⟩
    rw [if_pos ha]
    cases h : s.head?.bind f with
    | none => simp
    | some t =>
      obtain ⟨c, -, hc⟩ := Option.bind_eq_some_iff.1 h
      intro x hx
      exact Or.inr (hf c t hc x hx)
  · left
    exact ⟨ha, fixD_of_ne ha s⟩

theorem prefix_of_fixD {f : Char → Option Str} (hf : ∀ c t, f c = some t → ∀ x ∈ t, x = 'E' ∨ x = '+')
    (hne : ∀ c t, f c = some t → t ≠ []) :
    ∀ (s w : Str), 'D' ∉ w → 'E' ∉ w → '+' ∉ w → w <+: fixD f s → w <+: s := by
  intro s
  induction s with
  | nil => intro w _ _ _ h; exact h
  | cons a s ih =>
    intro w h1 h2 h3 h
    cases w with
    | nil => exact List.nil_prefix
    | cons c w =>
      simp only [List.mem_cons, not_or] at h1 h2 h3
      by_cases ha : a = 'D'
      · exfalso
        rw [fixD, if_pos ha] at h
        cases hb : s.head?.bind f with
        | none =>
          rw [hb] at h
          simp only [Option.getD_none, List.cons_append, List.cons_prefix_cons] at h
          exact h1.1 h.1.symm
        | some t =>
          obtain ⟨c', -, hc⟩ := Option.bind_eq_some_iff.1 hb
          obtain ⟨x, t', rfl⟩ := List.exists_cons_of_ne_nil (hne c' t hc)
          rw [hb] at h
          simp only [Option.getD_some, List.cons_append, List.cons_prefix_cons] at h
          rcases hf c' _ hc x (List.mem_cons_self ..) with rfl | rfl
          · exact h2.1 h.1.symm
          · exact h3.1 h.1.symm
      · rw [fixD_of_ne ha, List.cons_prefix_cons] at h
        rw [List.cons_prefix_cons]
        exact ⟨h.1, ih w h1.2 h2.2 h3.2 h.2⟩

theorem infix_of_fixD {f : Char → Option Str} (hf : ∀ c t, f c = some t → ∀ x ∈ t, x = 'E' ∨ x = '+')
    (hne : ∀ c t, f c = some t → t ≠ []) {w : Str} (hw : w ≠ []) (h1 : 'D' ∉ w) (h2 : 'E' ∉ w)
    (h3 : '+' ∉ w) : ∀ s : Str, w <:+: fixD f s → w <:+: s := by
  intro s
  induction s with
  | nil => intro h; exact h
  | cons a s ih =>
    intro h
    rcases fixD_piece f a s hf with ⟨ha, he⟩ | ⟨ha, t, he, ht⟩
    · rw [he, List.infix_cons_iff] at h
      rcases h with h | h
      · rw [← he] at h
        exact (prefix_of_fixD hf hne _ w h1 h2 h3 h).isInfix
      · exact (ih h).trans (List.suffix_cons _ _).isInfix
    · rw [he] at h
      refine (ih (infix_of_append hw ?_ h)).trans (List.suffix_cons _ _).isInfix
      intro c hc
      rcases ht c hc with rfl | rfl | rfl
      · exact h1
      · exact h2
      · exact h3

theorem rule_ne_nil {c : Char} {t : Str} (h : exponentRule c = some t) : t ≠ [] := by
  intro hh; subst hh; simpa using (rule_head h).1

theorem findSub_none {w : Str} : ∀ s : Str, ¬ w <:+: s → findSub w s = none := by
  intro s
  induction s with
  | nil =>
    intro h
    rw [findSub, if_neg]
    rintro rfl
    exact h List.nil_infix
  | cons a s ih =>
    intro h
    rw [findSub, if_neg, ih (fun hi => h (hi.trans (List.suffix_cons _ _).isInfix))]
    · rfl
    · rw [isPrefixOf_iff]; exact fun hp => h hp.isInfix

/-! ## C25 -/

/-- The double-precision exponents the converters know. -/
def Spec.exponents : List Str :=
  ["D-", "D+", "D1", "D2", "D3", "D4", "D5", "D6", "D7", "D8", "D9"].map String.toList

/-- The function names the converters know. -/
def Spec.functions : List Str := ["dabs", "dsqrt", "dlog", "LOG", "EXP"].map String.toList

theorem replaceLoop_id {ops : List (Str × Str)} {s : Str} (h : ∀ op ∈ ops, ¬ op.1 <:+: s) :
    mapLoop ops s = s := by
  unfold mapLoop
  induction ops with
  | nil => rfl
  | cons op ops ih =>
    rw [List.foldl_cons, replaceAll_of_not_infix _ (h op (List.mem_cons_self ..))]
    exact ih (fun o ho => h o (List.mem_cons_of_mem _ ho))

theorem mathLoop_id {ops : List (Str × Str)} {s : Str} (h : ∀ op ∈ ops, ¬ op.1 <:+: s) :
    mathLoop ops s = s := by
  rcases List.eq_nil_or_concat ops with rfl | ⟨l, op, rfl⟩
  · rfl
  · rw [List.concat_eq_append, mathLoop_last]
    exact replaceAll_of_not_infix _ (h op (by simp))

/-- C25: an expression without function name, double-precision exponent or round bracket passes
through all three converters unchanged; the Fortran converter also keeps brackets, and the numba
converter keeps brackets that are not those of a photolysis reference. -/
theorem C25_pass_through {s : Str} (hf : ∀ w ∈ Spec.functions, ¬ w <:+: s)
    (he : ∀ w ∈ Spec.exponents, ¬ w <:+: s) :
    convertFortran s = s ∧ (¬ "J(".toList <:+: s → convertNumba s = s) ∧
      ('(' ∉ s → ')' ∉ s → (∀ w ∈ afterTextPy, ¬ w <:+: s) → convertPy s = s) := by
  have hfull : mapLoop mapListFull s = s := by
    apply replaceLoop_id
    intro op hop
    apply he
    revert op; decide
  have hpy : mapLoop mapListPy s = s := by
    apply replaceLoop_id
    intro op hop
    apply he
    revert op; decide
  refine ⟨?_, ?_, ?_⟩
  · unfold convertFortran
    rw [mathLoop_id, hfull]
    intro op hop
    apply hf
    revert op; decide
  · intro hj
    unfold convertNumba
    rw [mathLoop_id, hfull]
    · exact photoBrackets_of_noPhoto hj
    · intro op hop
      apply hf
      revert op; decide
  · intro h1 h2 h3
    unfold convertPy
    rw [mathLoop_id, hpy]
    · have e1 : replaceAll ['('] ['['] s = s := by
        apply replaceAll_of_not_infix
        intro hh; exact h1 (hh.subset (by simp))
      have e2 : replaceAll [')'] [']'] s = s := by
        apply replaceAll_of_not_infix
        intro hh; exact h2 (hh.subset (by simp))
      dsimp only
      rw [e1, e2]
      have hstep : ∀ l : List Str, (∀ w ∈ l, ¬ w <:+: s) → l.foldl restoreStep s = s := by
        intro l
        induction l with
        | nil => intro _; rfl
        | cons w l ih =>
          intro hl
          rw [List.foldl_cons]
          have : restoreStep s w = s := by
            unfold restoreStep
            have : findSub w s = none := findSub_none s (hl w (List.mem_cons_self ..))
            rw [this]
          rw [this]
          exact ih (fun x hx => hl x (List.mem_cons_of_mem _ hx))
      exact hstep _ h3
    · intro op hop
      apply hf
      revert op; decide

example : (∀ w ∈ Spec.functions, ¬ w <:+: "KRO2NO*0.9".toList) ∧
    (∀ w ∈ Spec.exponents, ¬ w <:+: "KRO2NO*0.9".toList) ∧ ¬ "J(".toList <:+: "KRO2NO*0.9".toList ∧
    (∀ w ∈ afterTextPy, ¬ w <:+: "KRO2NO*0.9".toList) := by decide +kernel

/-! ## C26 -/

theorem C26_expression (s : Str) : convertFortran (convertFortran s) = convertFortran s := by
  have hgone : ¬ "dlog".toList <:+: convertFortran s := by
    rw [convertFortran_eq]
    intro h
    have := infix_of_fixD (fun c t h => rule_chars h) (fun c t h => rule_ne_nil h)
      (by decide) (by decide) (by decide) (by decide) _ h
    exact replaceAll_gone (by decide) (by decide) (by decide) s this
  rw [convertFortran_eq (convertFortran s), replaceAll_of_not_infix _ hgone, convertFortran_eq,
    fixD_comp _ _ (fun c t h => rule_head h) (by decide) (by decide)]
  congr 1
  funext c
  cases exponentRule c <;> rfl

/-- C26: converting a rate table to Fortran twice is the same as converting it once. -/
theorem C26_idempotent (d : Dict Nat Str) :
    convertTable convertFortran (convertTable convertFortran d) = convertTable convertFortran d := by
  unfold convertTable
  rw [List.map_map]
  apply List.map_congr_left
  intro p _
  simp only [Function.comp, C26_expression]

example : convertFortran "1.2D-12*dlog(TEMP)+3D10".toList = "1.2E-12*LOG(TEMP)+3E+10".toList := by
  decide +kernel

/-! ## C27 -/

/-- C27 as stated, for one converter: none of its source names is left. -/
def C27_Statement (convert : Str → Str) (sources : List Str) : Prop :=
  ∀ s, ∀ w ∈ sources, ¬ w <:+: convert s

/-- The source names of the Fortran converter; `LOG` and `EXP` are Fortran functions already. -/
def Spec.fortranFunctions : List Str := ["dabs", "dsqrt", "dlog"].map String.toList

theorem C27_false : ¬ C27_Statement convertFortran Spec.fortranFunctions ∧
    ¬ C27_Statement convertNumba Spec.functions ∧ ¬ C27_Statement convertPy Spec.functions := by
  refine ⟨fun h => ?_, fun h => ?_, fun h => ?_⟩
  · exact h "dsqrt(TEMP)".toList "dsqrt".toList (by decide) (by decide +kernel)
  · exact h "dsqrt(TEMP)".toList "dsqrt".toList (by decide) (by decide +kernel)
  · exact h "LOG(TEMP)".toList "LOG".toList (by decide) (by decide +kernel)

/-- Words none of whose characters occurs in the pattern, and to which no exponent rule applies,
survive. -/
theorem replaceAll_word {old new : Str} (hne : old ≠ []) (w : Str) (hw : ∀ c ∈ w, c ∉ old) :
    ∀ x y : Str, w ≠ [] → replaceAll old new (x ++ w ++ y) =
      replaceAll old new x ++ w ++ replaceAll old new y := by
  induction w with
  | nil => intro x y h; exact absurd rfl h
  | cons c w ih =>
    intro x y _
    have hc := hw c (List.mem_cons_self ..)
    rw [List.append_assoc, List.cons_append, replaceAll_cut hne hc]
    cases w with
    | nil => simp
    | cons c' w =>
      have := ih (fun c h => hw c (List.mem_cons_of_mem _ h)) [] y (by simp)
      rw [List.nil_append] at this
      rw [this]
      simp [replaceAll, replaceGo]

theorem fixD_word (f : Char → Option Str) (w : Str) (hw : ∀ c ∈ w, c ≠ 'D' ∧ f c = none) :
    ∀ x y : Str, w ≠ [] → fixD f (x ++ w ++ y) = fixD f x ++ w ++ fixD f y := by
  induction w with
  | nil => intro x y h; exact absurd rfl h
  | cons c w ih =>
    intro x y _
    obtain ⟨h1, h2⟩ := hw c (List.mem_cons_self ..)
    rw [List.append_assoc, List.cons_append, fixD_cut f h2 h1]
    cases w with
    | nil => simp
    | cons c' w =>
      have := ih (fun c h => hw c (List.mem_cons_of_mem _ h)) [] y (by simp)
      rw [List.nil_append] at this
      rw [this]
      simp [fixD]

theorem replaceAll_last {old new : Str} (hne : old ≠ []) {c : Char} (hc : old.getLast? ≠ some c) :
    ∀ x : Str, replaceAll old new (x ++ [c]) = replaceAll old new x ++ [c] := by
  have hcut : ∀ a : Str, old <+: a ++ [c] → old <+: a := by
    intro a h
    rcases Nat.lt_or_ge a.length old.length with hl | hl
    · exfalso
      have : old = a ++ [c] := by
        apply List.IsPrefix.eq_of_length h
        have := h.length_le
        rw [List.length_append] at *
        simp only [List.length_singleton] at *
        omega
      rw [this] at hc
      simp at hc
    · exact List.prefix_of_prefix_length_le h ⟨[c], rfl⟩ hl
  refine replace_induct hne (P := fun x => replaceAll old new (x ++ [c]) = replaceAll old new x ++ [c]) ?_ ?_ ?_
  · rw [List.nil_append, replaceAll_copy (fun hp => hne (List.prefix_nil.1 (hcut [] hp)))]; rfl
  · intro s ih
    rw [List.append_assoc, replaceAll_match hne, replaceAll_match hne, ih, List.append_assoc]
  · intro a s hp ih
    have hp' : ¬ old <+: a :: (s ++ [c]) := fun h => hp (hcut (a :: s) h)
    rw [List.cons_append, replaceAll_copy hp', replaceAll_copy hp, ih, List.cons_append]

/-- C27, what is never translated: `dabs` and `dsqrt` are left as they are by the Fortran converter,
wherever they occur. -/
theorem C27_kept_fortran (s w : Str) (hw : w = "dabs".toList ∨ w = "dsqrt".toList) :
    w <:+: convertFortran s ↔ w <:+: s := by
  rw [convertFortran_eq]
  constructor
  · intro h
    have h' := infix_of_fixD (fun c t h => rule_chars h) (fun c t h => rule_ne_nil h)
      (by rcases hw with rfl | rfl <;> decide) (by rcases hw with rfl | rfl <;> decide)
      (by rcases hw with rfl | rfl <;> decide) (by rcases hw with rfl | rfl <;> decide) _ h
    exact infix_of_replaceAll (by decide) (by decide) (by rcases hw with rfl | rfl <;> decide)
      (by rcases hw with rfl | rfl <;> decide) _ h'
  · rintro ⟨x, y, rfl⟩
    have key : ∀ v : Str, v ≠ [] → (∀ c ∈ v, c ∉ "dlog".toList) → w = 'd' :: v →
        replaceAll "dlog".toList "LOG".toList (x ++ w ++ y) =
          replaceAll "dlog".toList "LOG".toList x ++ w ++ replaceAll "dlog".toList "LOG".toList y := by
      intro v hv hc hwv
      rw [hwv]
      have e1 : x ++ 'd' :: v ++ y = (x ++ ['d']) ++ v ++ y := by simp
      rw [e1, replaceAll_word (by decide) v hc _ _ hv, replaceAll_last (by decide) (by decide)]
      simp
    have : replaceAll "dlog".toList "LOG".toList (x ++ w ++ y) =
        replaceAll "dlog".toList "LOG".toList x ++ w ++ replaceAll "dlog".toList "LOG".toList y := by
      rcases hw with rfl | rfl
      · exact key "abs".toList (by decide) (by decide) rfl
      · exact key "sqrt".toList (by decide) (by decide) rfl
    rw [this, fixD_word exponentRule w (by rcases hw with rfl | rfl <;> decide) _ _
      (by rcases hw with rfl | rfl <;> decide)]
    exact ⟨_, _, rfl⟩

/-- C27, what is never translated: in an expression without photolysis reference the numba converter
leaves `dabs`, `dsqrt`, `dlog` and `LOG` as they are. -/
theorem C27_kept_numba (s w : Str) (hw : w ∈ ["dabs", "dsqrt", "dlog", "LOG"].map String.toList)
    (hJ : ¬ "J(".toList <:+: s) (h : w <:+: s) : w <:+: convertNumba s := by
  have hJ' : NoPhoto (numbaText s) := by
    intro hi
    refine hJ (infix_of_replaceAll (by decide) (by decide) (by decide) (by decide) _
      (infix_of_fixD (fun c t h => rule_chars h) (fun c t h => rule_ne_nil h)
        (by decide) (by decide) (by decide) (by decide) _ hi))
  rw [convertNumba_eq, photoBrackets_of_noPhoto hJ']
  clear hJ hJ'
  obtain ⟨x, y, rfl⟩ := h
  unfold numbaText
  have hne : w ≠ [] := by revert w; decide
  rw [replaceAll_word (by decide) w (by revert w; decide) _ _ hne,
    fixD_word exponentRule w (by revert w; decide) _ _ hne]
  exact ⟨_, _, rfl⟩

/-- C27, correct case: the last name of each list is always translated, and when no other name
occurs the result is that of applying all translations one after the other. -/
theorem C27_translated_partial (s : Str) :
    ¬ "dlog".toList <:+: convertFortran s ∧ ¬ "EXP".toList <:+: mathLoop mathListNumba s ∧
    ¬ "EXP".toList <:+: mathLoop mathListPy s ∧
    ((∀ w ∈ ["dabs", "dsqrt"].map String.toList, ¬ w <:+: s) →
      mathLoop mathListFortran s = mapLoop mathListFortran s) ∧
    ((∀ w ∈ ["dabs", "dsqrt", "dlog", "LOG"].map String.toList, ¬ w <:+: s) →
      mathLoop mathListNumba s = mapLoop mathListNumba s ∧
      mathLoop mathListPy s = mapLoop mathListPy s) := by
  refine ⟨?_, ?_, ?_, ?_, ?_⟩
  · rw [convertFortran_eq]
    intro h
    have := infix_of_fixD (fun c t h => rule_chars h) (fun c t h => rule_ne_nil h)
      (by decide) (by decide) (by decide) (by decide) _ h
    exact replaceAll_gone (by decide) (by decide) (by decide) s this
  · exact replaceAll_gone (by decide) (by decide) (by decide) s
  · exact replaceAll_gone (by decide) (by decide) (by decide) s
  · intro h
    have h1 := replaceAll_of_not_infix (new := "ABS".toList) _ (h "dabs".toList (by decide))
    have h2 := replaceAll_of_not_infix (new := "SQRT".toList) _ (h "dsqrt".toList (by decide))
    unfold mapLoop mathLoop mathListFortran
    simp only [List.foldl_cons, List.foldl_nil, h1, h2]
  · intro h
    constructor
    · have h1 := replaceAll_of_not_infix (new := "numba_abs".toList) _ (h "dabs".toList (by decide))
      have h2 := replaceAll_of_not_infix (new := "numba_sqrt".toList) _ (h "dsqrt".toList (by decide))
      have h3 := replaceAll_of_not_infix (new := "numba_log".toList) _ (h "dlog".toList (by decide))
      have h4 := replaceAll_of_not_infix (new := "numba_log".toList) _ (h "LOG".toList (by decide))
      unfold mapLoop mathLoop mathListNumba
      simp only [List.foldl_cons, List.foldl_nil, h1, h2, h3, h4]
    · have h1 := replaceAll_of_not_infix (new := "numpy.abs".toList) _ (h "dabs".toList (by decide))
      have h2 := replaceAll_of_not_infix (new := "numpy.sqrt".toList) _ (h "dsqrt".toList (by decide))
      have h3 := replaceAll_of_not_infix (new := "numpy.log".toList) _ (h "dlog".toList (by decide))
      have h4 := replaceAll_of_not_infix (new := "numpy.log".toList) _ (h "LOG".toList (by decide))
      unfold mapLoop mathLoop mathListPy
      simp only [List.foldl_cons, List.foldl_nil, h1, h2, h3, h4]

/-! ## C28 -/

/-- A rate expression with its photolysis references marked: text before the first reference, then
each reference with the text after it. -/
structure Spec.RateText where
  start : Str
  refs : List (Str × Str)

/-- The expression as written in the mechanism, `J(n)` for each reference. -/
def Spec.RateText.source (r : Spec.RateText) : Str :=
  r.start ++ r.refs.flatMap (fun p => "J(".toList ++ p.1 ++ [')'] ++ p.2)

/-- The expression with array references, `J[n]`. -/
def Spec.RateText.target (r : Spec.RateText) : Str :=
  r.start ++ r.refs.flatMap (fun p => "J[".toList ++ p.1 ++ [']'] ++ p.2)

/-- All references are marked and their indices contain no bracket. -/
structure Spec.RateText.Ok (r : Spec.RateText) : Prop where
  start : ¬ "J(".toList <:+: r.start
  rest : ∀ p ∈ r.refs, ¬ "J(".toList <:+: p.2
  index : ∀ p ∈ r.refs, ∀ c ∈ ['(', ')', '[', ']'], c ∉ p.1

/-- Apply a text conversion to the parts. -/
def Spec.RateText.map (f : Str → Str) (r : Spec.RateText) : Spec.RateText :=
  ⟨f r.start, r.refs.map (fun p => (f p.1, f p.2))⟩

theorem photoBrackets_source : ∀ (refs : List (Str × Str)) (a : Str), NoPhoto a →
    (∀ p ∈ refs, NoPhoto p.2) → (∀ p ∈ refs, '(' ∉ p.1 ∧ ')' ∉ p.1) →
    photoBrackets (Spec.RateText.source ⟨a, refs⟩) = Spec.RateText.target ⟨a, refs⟩ := by
  intro refs
  induction refs with
  | nil =>
    intro a ha _ _
    simp only [Spec.RateText.source, Spec.RateText.target, List.flatMap_nil, List.append_nil]
    exact photoBrackets_of_noPhoto ha
  | cons p refs ih =>
    intro a ha h1 h2
    have hi := ih p.2 (h1 p (List.mem_cons_self ..)) (fun q hq => h1 q (List.mem_cons_of_mem _ hq))
      (fun q hq => h2 q (List.mem_cons_of_mem _ hq))
    have e : Spec.RateText.source ⟨a, p :: refs⟩ =
        a ++ ("J(".toList ++ p.1 ++ [')'] ++ Spec.RateText.source ⟨p.2, refs⟩) := by
      simp [Spec.RateText.source]
    rw [e, photoBrackets_ref ha (h2 p (List.mem_cons_self ..)), hi]
    simp [Spec.RateText.target]

/-- The relation "not a reference" between neighbours. -/
def NotRef (x y : Char) : Prop := ¬ (x = 'J' ∧ y = '(')

theorem noPhoto_iff (s : Str) : NoPhoto s ↔ s.IsChain NotRef := by
  unfold NoPhoto
  induction s with
  | nil => simp
  | cons a s ih =>
    rw [List.infix_cons_iff, List.isChain_cons, not_or, ih]
    apply and_congr_left'
    show ¬ ['J', '('] <+: a :: s ↔ _
    rw [List.cons_prefix_cons]
    cases s with
    | nil => simp
    | cons b s =>
      simp only [List.cons_prefix_cons, List.nil_prefix, and_true, List.head?_cons, Option.mem_def,
        Option.some.injEq, forall_eq']
      unfold NotRef
      rw [not_iff_not]
      constructor <;> rintro ⟨rfl, rfl⟩ <;> exact ⟨rfl, rfl⟩

theorem fixD_noPhoto {s : Str} (h : NoPhoto s) : NoPhoto (fixD exponentRule s) := by
  intro hi
  exact h (infix_of_fixD (fun c t h => rule_chars h) (fun c t h => rule_ne_nil h)
      (by decide) (by decide) (by decide) (by decide) _ hi)

theorem numbaText_noPhoto {s : Str} (h : NoPhoto s) : NoPhoto (numbaText s) := by
  apply fixD_noPhoto
  intro hi
  exact h (infix_of_replaceAll (by decide) (by decide) (by decide) (by decide) _ hi)

theorem numbaText_not_mem {s : Str} {c : Char} (hc : c ∈ ['(', ')', '[', ']']) (h : c ∉ s) :
    c ∉ numbaText s := by
  intro hm
  apply h
  have hi : [c] <:+: numbaText s := (List.singleton_infix_iff _ _).2 hm
  unfold numbaText at hi
  have h1 := infix_of_fixD (fun c t h => rule_chars h) (fun c t h => rule_ne_nil h)
      (by simp) (by clear hi hm h; revert c; decide) (by clear hi hm h; revert c; decide)
      (by clear hi hm h; revert c; decide) _ hi
  exact (List.singleton_infix_iff _ _).1
    (infix_of_replaceAll (by decide) (by decide) (by simp) (by clear h1 hi hm h; revert c; decide) _ h1)

/-- The text conversions act on the parts separately. -/
theorem numbaText_source : ∀ (refs : List (Str × Str)) (a : Str),
    numbaText (Spec.RateText.source ⟨a, refs⟩) =
      Spec.RateText.source (Spec.RateText.map numbaText ⟨a, refs⟩) := by
  have hcut : ∀ (c : Char), c ∈ ['J', '(', ')'] → ∀ a b : Str,
      numbaText (a ++ c :: b) = numbaText a ++ c :: numbaText b := by
    intro c hc a b
    unfold numbaText
    rw [replaceAll_cut (by decide) (by revert c; decide), fixD_cut _ (by revert c; decide)
      (by revert c; decide)]
  intro refs
  induction refs with
  | nil => intro a; simp [Spec.RateText.source, Spec.RateText.map]
  | cons p refs ih =>
    intro a
    have e : Spec.RateText.source ⟨a, p :: refs⟩ =
        a ++ 'J' :: ([] ++ '(' :: (p.1 ++ ')' :: Spec.RateText.source ⟨p.2, refs⟩)) := by
      simp [Spec.RateText.source]
    rw [e, hcut 'J' (by decide), hcut '(' (by decide), hcut ')' (by decide), ih]
    simp [Spec.RateText.source, Spec.RateText.map, numbaText, replaceAll, replaceGo, fixD]

/-- C28: in the expression written by the numba converter every `J(n)` has become `J[n]`; the other
parts are converted on their own and keep their brackets. -/
theorem C28_array_references (r : Spec.RateText) (h : r.Ok) :
    convertNumba r.source = (r.map numbaText).target := by
  obtain ⟨a, refs⟩ := r
  rw [convertNumba_eq, numbaText_source]
  unfold Spec.RateText.map
  apply photoBrackets_source
  · exact numbaText_noPhoto h.start
  · intro p hp
    rw [List.mem_map] at hp
    obtain ⟨q, hq, rfl⟩ := hp
    exact numbaText_noPhoto (h.rest q hq)
  · intro p hp
    rw [List.mem_map] at hp
    obtain ⟨q, hq, rfl⟩ := hp
    exact ⟨numbaText_not_mem (by decide) (h.index q hq _ (by decide)),
      numbaText_not_mem (by decide) (h.index q hq _ (by decide))⟩

/-- Take the expected opening bracket from the stack. -/
def Spec.pop (o : Char) : List Char → Option (List Char)
  | [] => none
  | c :: st => if c = o then some st else none

/-- Read brackets against a stack; `none` is a mismatch. -/
def Spec.brackets : Str → List Char → Option (List Char)
  | [], st => some st
  | c :: s, st =>
    if c = '(' ∨ c = '[' then brackets s (c :: st)
    else if c = ')' then (Spec.pop '(' st).bind (fun st => brackets s st)
    else if c = ']' then (Spec.pop '[' st).bind (fun st => brackets s st)
    else brackets s st

/-- A text whose round and square brackets match. -/
def Spec.WellBracketed (s : Str) : Prop := Spec.brackets s [] = some []

theorem brackets_append (a b : Str) : ∀ st,
    Spec.brackets (a ++ b) st = (Spec.brackets a st).bind (Spec.brackets b) := by
  induction a with
  | nil => intro st; rfl
  | cons c a ih =>
    intro st
    rw [List.cons_append, Spec.brackets, Spec.brackets]
    split
    · exact ih _
    · split
      · cases Spec.pop '(' st with
        | none => rfl
        | some st => exact ih _
      · split
        · cases Spec.pop '[' st with
          | none => rfl
          | some st => exact ih _
        · exact ih _

theorem brackets_plain {a : Str} (h : ∀ c ∈ ['(', ')', '[', ']'], c ∉ a) (st : List Char) :
    Spec.brackets a st = some st := by
  induction a with
  | nil => rfl
  | cons c a ih =>
    have hc : ∀ d ∈ ['(', ')', '[', ']'], d ≠ c ∧ d ∉ a := by
      intro d hd
      have := h d hd
      rw [List.mem_cons, not_or] at this
      exact this
    rw [Spec.brackets, if_neg, if_neg, if_neg]
    · exact ih (fun d hd => (hc d hd).2)
    · exact fun hh => (hc ']' (by decide)).1 hh.symm
    · exact fun hh => (hc ')' (by decide)).1 hh.symm
    · rintro (hh | hh)
      · exact (hc '(' (by decide)).1 hh.symm
      · exact (hc '[' (by decide)).1 hh.symm

/-- Skeleton of brackets. -/
theorem brackets_filter (a : Str) : ∀ st,
    Spec.brackets a st = Spec.brackets (a.filter (fun c => c ∈ ['(', ')', '[', ']'])) st := by
  induction a with
  | nil => intro st; rfl
  | cons c a ih =>
    intro st
    by_cases hc : c ∈ ['(', ')', '[', ']']
    · rw [List.filter_cons_of_pos (by simpa using hc), Spec.brackets, Spec.brackets]
      split
      · exact ih _
      · split
        · cases Spec.pop '(' st with
          | none => rfl
          | some st => exact ih _
        · split
          · cases Spec.pop '[' st with
            | none => rfl
            | some st => exact ih _
          · exact ih _
    · rw [List.filter_cons_of_neg (by simpa using hc), Spec.brackets]
      simp only [List.mem_cons, List.not_mem_nil, or_false, not_or] at hc
      rw [if_neg (by simp [hc]), if_neg hc.2.1, if_neg hc.2.2.2]
      exact ih st

theorem replaceAll_filter {old new : Str} (hne : old ≠ []) (p : Char → Bool) (ho : old.filter p = [])
    (hn : new.filter p = []) : ∀ s, (replaceAll old new s).filter p = s.filter p := by
  refine replace_induct hne ?_ ?_ ?_
  · rfl
  · intro s ih
    rw [replaceAll_match hne, List.filter_append, List.filter_append, hn, ho, ih]
  · intro a s hp ih
    rw [replaceAll_copy hp, List.filter_cons, List.filter_cons, ih]

theorem fixD_filter (p : Char → Bool) (hD : p 'D' = false) (hE : p 'E' = false) (hp : p '+' = false)
    (s : Str) : (fixD exponentRule s).filter p = s.filter p := by
  induction s with
  | nil => rfl
  | cons a s ih =>
    rcases fixD_piece exponentRule a s (fun c t h => rule_chars h) with ⟨ha, he⟩ | ⟨ha, t, he, ht⟩
    · rw [he, List.filter_cons, List.filter_cons, ih]
    · rw [he, List.filter_append, ih, ha, List.filter_cons_of_neg (by simp [hD])]
      have : t.filter p = [] := by
        rw [List.filter_eq_nil_iff]
        intro x hx
        rcases ht x hx with rfl | rfl | rfl <;> simp [hD, hE, hp]
      rw [this]; rfl

theorem numbaText_brackets (s : Str) (st : List Char) :
    Spec.brackets (numbaText s) st = Spec.brackets s st := by
  rw [brackets_filter, brackets_filter s]
  unfold numbaText
  rw [fixD_filter _ (by decide) (by decide) (by decide),
    replaceAll_filter (by decide) _ (by decide) (by decide)]

/-- C28: a well bracketed expression stays well bracketed. -/
theorem C28_well_bracketed (r : Spec.RateText) (h : r.Ok) (hw : Spec.WellBracketed r.source) :
    Spec.WellBracketed (convertNumba r.source) := by
  unfold Spec.WellBracketed at *
  rw [C28_array_references r h, ← hw]
  obtain ⟨a, refs⟩ := r
  have hi := h.index
  clear hw h
  unfold Spec.RateText.map Spec.RateText.source Spec.RateText.target
  dsimp only at hi ⊢
  rw [brackets_append, brackets_append, numbaText_brackets]
  congr 1
  funext st
  revert st
  induction refs with
  | nil => intro st; rfl
  | cons p refs ih =>
    intro st
    have hp := hi p (List.mem_cons_self ..)
    have hq : ∀ c ∈ ['(', ')', '[', ']'], c ∉ numbaText p.1 := fun c hc => numbaText_not_mem hc (hp c hc)
    have e1 : Spec.brackets ("J(".toList ++ p.1 ++ [')'] ++ p.2) st = Spec.brackets p.2 st := by
      rw [brackets_append, brackets_append, brackets_append]
      have : Spec.brackets "J(".toList st = some ('(' :: st) := rfl
      rw [this, Option.bind_some, brackets_plain hp]; rfl
    have e2 : Spec.brackets ("J[".toList ++ numbaText p.1 ++ [']'] ++ numbaText p.2) st =
        Spec.brackets p.2 st := by
      rw [brackets_append, brackets_append, brackets_append]
      have : Spec.brackets "J[".toList st = some ('[' :: st) := rfl
      rw [this, Option.bind_some, brackets_plain hq]
      exact numbaText_brackets _ _
    rw [List.map_cons, List.flatMap_cons, List.flatMap_cons, brackets_append, e2,
      brackets_append, e1]
    congr 1
    funext st'
    exact ih (fun q hq => hi q (List.mem_cons_of_mem _ hq)) st'

/-- A concrete expression. -/
example : let r : Spec.RateText := ⟨"2D-3*EXP(-3/(TEMP))*".toList, [("4".toList, "+(".toList), ("15".toList, ")*2".toList)]⟩
    r.Ok ∧ Spec.WellBracketed r.source ∧ r.source = "2D-3*EXP(-3/(TEMP))*J(4)+(J(15))*2".toList ∧
    convertNumba r.source = "2E-3*numba_exp(-3/(TEMP))*J[4]+(J[15])*2".toList := by
  refine ⟨⟨by decide +kernel, by decide +kernel, by decide +kernel⟩, by unfold Spec.WellBracketed; decide +kernel, by decide +kernel,
    by decide +kernel⟩

/-- The unused plain Python converter restores the brackets of the first occurrence of a function
only, and at the first closing bracket. -/
theorem C28_plain_python_wrong :
    convertPy "EXP(A)*EXP(B)".toList = "numpy.exp(A)*numpy.exp[B]".toList ∧
    convertPy "EXP(-3/(TEMP))".toList = "numpy.exp(-3/[TEMP)]".toList := by decide +kernel

/-! ## C29 -/

/-- A floating point literal with an exponent: digits before and after the point, the sign of the
exponent if one is written, and the digits of the exponent. -/
structure Spec.DLiteral where
  whole : Str
  frac : Str
  point : Bool
  sign : Option Bool
  exp : Str

/-- What a literal has to look like. -/
structure Spec.DLiteral.Ok (l : Spec.DLiteral) : Prop where
  whole : ∀ c ∈ l.whole, isDigit c = true
  frac : ∀ c ∈ l.frac, isDigit c = true
  exp : ∀ c ∈ l.exp, isDigit c = true
  point : l.point = false → l.frac = []
  some : l.whole ++ l.frac ≠ []
  digits : l.exp ≠ []

/-- The literal with exponent letter `m`. -/
def Spec.DLiteral.text (m : Char) (l : Spec.DLiteral) : Str :=
  l.whole ++ (if l.point then ['.'] else []) ++ l.frac ++ [m] ++
    (match l.sign with | none => [] | some true => ['+'] | some false => ['-']) ++ l.exp

/-- The number a literal stands for. -/
def Spec.DLiteral.value (l : Spec.DLiteral) : ℚ :=
  (digitsVal (l.whole ++ l.frac) : ℚ) / 10 ^ l.frac.length *
    (if l.sign = some false then (10 ^ digitsVal l.exp)⁻¹ else 10 ^ digitsVal l.exp)

/-- The pieces of a rate expression. -/
inductive Spec.Piece where
  | lit (l : Spec.DLiteral)
  | plain (number : Str)
  | ident (name : Str)
  | op (c : Char)

def Spec.isLetter (c : Char) : Bool := c.isAlpha || c == '_'

def Spec.Piece.Ok : Spec.Piece → Prop
  | .lit l => l.Ok
  | .plain s => s ≠ [] ∧ ∀ c ∈ s, isDigit c = true ∨ c = '.'
  | .ident s => (∀ c ∈ s, Spec.isLetter c = true ∨ isDigit c = true) ∧
      ∃ a t, s = a :: t ∧ Spec.isLetter a = true
  | .op c => c ∈ ['+', '-', '*', '/', '(', ')', '[', ']', ',', ' ', '@']

def Spec.Piece.isOp : Spec.Piece → Bool
  | .op _ => true
  | _ => false

/-- Pieces as written, with exponent letter `m`. -/
def Spec.Piece.text (m : Char) : Spec.Piece → Str
  | .lit l => l.text m
  | .plain s => s
  | .ident s => s
  | .op c => [c]

/-- An expression: correct pieces, words separated by operators. -/
structure Spec.Expression (ps : List Spec.Piece) : Prop where
  pieces : ∀ p ∈ ps, p.Ok
  separated : ps.IsChain (fun p q => p.isOp = true ∨ q.isOp = true)

/-- The same literal up to the way the exponent is written. -/
def Spec.SamePiece : Spec.Piece → Spec.Piece → Prop
  | .lit l, .lit l' => l'.Ok ∧ l'.value = l.value
  | p, q => p = q

/-- C29 as stated, for the exponent pass of the numba and Fortran converters: an expression becomes
one with the same pieces, with literals of the same value in E notation. -/
def C29_Statement : Prop := ∀ ps, Spec.Expression ps →
  ∃ qs, List.Forall₂ Spec.SamePiece ps qs ∧
    mapLoop mapListFull (ps.flatMap (Spec.Piece.text 'D')) = qs.flatMap (Spec.Piece.text 'E')

/-- Pieces the pass treats correctly: exponents with a sign or a first digit other than 0,
identifiers that do not end in `D` and have no `D` before a digit other than 0. -/
def Spec.Piece.Safe : Spec.Piece → Prop
  | .lit l => l.sign.isSome = true ∨ ∃ d t, l.exp = d :: t ∧ d ≠ '0'
  | .ident s => s.getLast? ≠ some 'D' ∧
      ∀ d ∈ ['1', '2', '3', '4', '5', '6', '7', '8', '9'], ¬ ['D', d] <:+: s
  | _ => True

theorem isDigit_iff (c : Char) :
    isDigit c = true ↔ c ∈ ['0', '1', '2', '3', '4', '5', '6', '7', '8', '9'] := by
  constructor
  · intro h
    unfold isDigit at h
    rw [Bool.and_eq_true, decide_eq_true_iff, decide_eq_true_iff] at h
    obtain ⟨h1, h2⟩ := h
    have h1 : 48 ≤ c.toNat := h1
    have h2 : c.toNat ≤ 57 := h2
    have hc : c = Char.ofNat c.toNat := (Char.ofNat_toNat c).symm
    rw [hc]
    generalize c.toNat = n at h1 h2
    interval_cases n <;> decide
  · intro h
    revert c
    decide

theorem digit_ne_D {s : Str} (h : ∀ c ∈ s, isDigit c = true) : 'D' ∉ s := by
  intro hm
  exact absurd (h _ hm) (by decide)

/-- Text in which no `D` stands before a character with a rule, and which does not end in `D`. -/
theorem fixD_safe {s : Str} (hs : ∀ c, exponentRule c ≠ none → ¬ ['D', c] <:+: s)
    (hl : s.getLast? ≠ some 'D') (t : Str) :
    fixD exponentRule (s ++ t) = s ++ fixD exponentRule t := by
  induction s with
  | nil => rfl
  | cons a s ih =>
    have hi := ih (fun c hc h => hs c hc (h.trans (List.suffix_cons _ _).isInfix)) (by
      cases s with
      | nil => simp
      | cons b s => rwa [List.getLast?_cons_cons] at hl)
    rw [List.cons_append]
    by_cases ha : a = 'D'
    · subst ha
      rw [fixD, if_pos rfl, hi]
      cases s with
      | nil => simp at hl
      | cons b s =>
        have hb : exponentRule b = none := by
          by_contra hb
          exact hs b hb ⟨[], s, rfl⟩
        simp [hb]
    · rw [fixD_of_ne ha, hi]; rfl

/-- The literal with its sign written. -/
def Spec.DLiteral.signed (l : Spec.DLiteral) : Spec.DLiteral :=
  { l with sign := l.sign.or (some true) }

theorem fixD_literal {l : Spec.DLiteral} (h : l.Ok)
    (hs : l.sign.isSome = true ∨ ∃ d t, l.exp = d :: t ∧ d ≠ '0') (t : Str) :
    fixD exponentRule (l.text 'D' ++ t) = l.signed.text 'E' ++ fixD exponentRule t := by
  obtain ⟨whole, frac, point, sign, exp⟩ := l
  have hm : 'D' ∉ whole ++ (if point then ['.'] else []) ++ frac := by
    simp only [List.mem_append, not_or]
    refine ⟨⟨digit_ne_D h.whole, ?_⟩, digit_ne_D h.frac⟩
    cases point <;> decide
  have he : 'D' ∉ exp := digit_ne_D h.exp
  unfold Spec.DLiteral.signed Spec.DLiteral.text
  dsimp only
  generalize whole ++ (if point then ['.'] else []) ++ frac = m at hm
  cases sign with
  | some b =>
    cases b
    all_goals
      simp only [Option.some_or, List.append_assoc, List.cons_append, List.nil_append]
      rw [fixD_append_of_not_mem _ hm, fixD, if_pos rfl, fixD_of_ne (by decide),
        fixD_append_of_not_mem _ he]
      rfl
  | none =>
    rcases hs with hs | ⟨d, u, hu, hd⟩
    · cases hs
    · dsimp only at hu
      subst hu
      have hdig := (isDigit_iff d).1 (h.exp d (List.mem_cons_self ..))
      have hr : exponentRule d = some ['E', '+'] := by
        simp only [List.mem_cons, List.not_mem_nil, or_false] at hdig
        rcases hdig with rfl | rfl | rfl | rfl | rfl | rfl | rfl | rfl | rfl | rfl
        · exact absurd rfl hd
        all_goals rfl
      simp only [Option.none_or, List.append_assoc, List.cons_append, List.nil_append]
      rw [fixD_append_of_not_mem _ hm, fixD, if_pos rfl]
      rw [show d :: (u ++ t) = (d :: u) ++ t from rfl, fixD_append_of_not_mem _ he]
      simp [hr]

/-- The piece with its exponent sign written. -/
def Spec.Piece.signed : Spec.Piece → Spec.Piece
  | .lit l => .lit l.signed
  | p => p

theorem fixD_pieceText {p : Spec.Piece} (h : p.Ok) (hs : p.Safe) (t : Str) :
    fixD exponentRule (p.text 'D' ++ t) = p.signed.text 'E' ++ fixD exponentRule t := by
  cases p with
  | lit l => exact fixD_literal h hs t
  | plain s =>
    refine fixD_append_of_not_mem _ ?_ t
    intro hm
    rcases h.2 _ hm with h | h
    · exact absurd h (by decide)
    · exact absurd h (by decide)
  | ident s =>
    refine fixD_safe ?_ hs.1 t
    intro c hc hi
    have hcs : c ∈ s := by
      obtain ⟨x, y, rfl⟩ := hi
      simp
    have hcc := h.1 c hcs
    unfold exponentRule at hc
    split at hc
    · rename_i hpm
      rcases hpm with rfl | rfl <;> revert hcc <;> decide
    · split at hc
      · rename_i hd
        exact hs.2 c hd hi
      · exact hc rfl
  | op c =>
    refine fixD_append_of_not_mem _ ?_ t
    intro hm
    rw [Spec.Piece.text, List.mem_singleton] at hm
    subst hm
    have h' : 'D' ∈ ['+', '-', '*', '/', '(', ')', '[', ']', ',', ' ', '@'] := h
    exact absurd h' (by decide)

/-- C29, correct case: when every exponent is signed or begins with a digit other than 0, and no
identifier ends in `D` or has a `D` before such a digit, the literals keep their values and all other
pieces are unchanged. -/
theorem C29_literals_partial (ps : List Spec.Piece) (h : Spec.Expression ps) (hs : ∀ p ∈ ps, p.Safe) :
    ∃ qs, List.Forall₂ Spec.SamePiece ps qs ∧
      mapLoop mapListFull (ps.flatMap (Spec.Piece.text 'D')) = qs.flatMap (Spec.Piece.text 'E') := by
  have hok := h.pieces
  clear h
  rw [mapLoop_full]
  refine ⟨ps.map Spec.Piece.signed, ?_, ?_⟩
  · rw [List.forall₂_map_right_iff, List.forall₂_same]
    intro p hp
    cases p with
    | lit l =>
      have hl : l.Ok := hok _ hp
      refine ⟨⟨hl.whole, hl.frac, hl.exp, hl.point, hl.some, hl.digits⟩, ?_⟩
      unfold Spec.DLiteral.value Spec.DLiteral.signed
      cases hsg : l.sign with
      | none => simp
      | some b => simp
    | plain s => rfl
    | ident s => rfl
    | op c => rfl
  · induction ps with
    | nil => rfl
    | cons p ps ih =>
      rw [List.flatMap_cons, fixD_pieceText (hok p (List.mem_cons_self ..)) (hs p (List.mem_cons_self ..)),
        ih (fun q hq => hs q (List.mem_cons_of_mem _ hq)) (fun q hq => hok q (List.mem_cons_of_mem _ hq))]
      rfl

/-- The same for the whole Fortran converter when there is no `dlog` to translate. -/
theorem C29_fortran_partial (ps : List Spec.Piece) (h : Spec.Expression ps) (hs : ∀ p ∈ ps, p.Safe)
    (hd : ¬ "dlog".toList <:+: ps.flatMap (Spec.Piece.text 'D')) :
    ∃ qs, List.Forall₂ Spec.SamePiece ps qs ∧
      convertFortran (ps.flatMap (Spec.Piece.text 'D')) = qs.flatMap (Spec.Piece.text 'E') := by
  rw [convertFortran_eq, replaceAll_of_not_infix _ hd, ← mapLoop_full]
  exact C29_literals_partial ps h hs

/-- C29, exactly when a text is altered: a `D` stands before a sign or a digit other than 0. -/
theorem C29_altered_exact (s : Str) : mapLoop mapListFull s = s ↔
    ∀ c ∈ ['-', '+', '1', '2', '3', '4', '5', '6', '7', '8', '9'], ¬ ['D', c] <:+: s := by
  rw [mapLoop_full]
  have hrule : ∀ c, c ∈ ['-', '+', '1', '2', '3', '4', '5', '6', '7', '8', '9'] ↔ exponentRule c ≠ none := by
    intro c
    unfold exponentRule
    rw [List.mem_cons, List.mem_cons]
    by_cases h1 : c = '-' ∨ c = '+'
    · rw [if_pos h1]
      simp only [ne_eq, reduceCtorEq, not_false_eq_true, iff_true]
      tauto
    · rw [if_neg h1]
      by_cases h2 : c ∈ ['1', '2', '3', '4', '5', '6', '7', '8', '9']
      · rw [if_pos h2]
        simp only [ne_eq, reduceCtorEq, not_false_eq_true, iff_true]
        tauto
      · rw [if_neg h2]
        simp only [ne_eq, not_true_eq_false, iff_false]
        tauto
  constructor
  · intro h
    induction s with
    | nil => intro c _ hi; rw [List.infix_nil] at hi; cases hi
    | cons a s ih =>
      intro c hc hi
      by_cases ha : a = 'D'
      · subst ha
        rw [fixD, if_pos rfl] at h
        cases hb : s.head?.bind exponentRule with
        | some t =>
          rw [hb] at h
          obtain ⟨d, -, hd⟩ := Option.bind_eq_some_iff.1 hb
          obtain ⟨x, hx⟩ := rule_head hd
          cases t with
          | nil => cases x
          | cons y t =>
            rw [List.head?_cons] at x
            injection x with x
            subst x
            simp at h
        | none =>
          rw [hb] at h
          simp only [Option.getD_none, List.cons_append, List.nil_append, List.cons.injEq, true_and] at h
          rw [List.infix_cons_iff] at hi
          rcases hi with hi | hi
          · cases s with
            | nil => simp at hi
            | cons b s =>
              rw [List.cons_prefix_cons, List.cons_prefix_cons] at hi
              obtain ⟨-, rfl, -⟩ := hi
              exact (hrule c).1 hc hb
          · exact ih h c hc hi
      · rw [fixD_of_ne ha] at h
        rw [List.infix_cons_iff] at hi
        rcases hi with hi | hi
        · rw [List.cons_prefix_cons] at hi
          exact ha hi.1.symm
        · exact ih (List.cons.inj h).2 c hc hi
  · intro h
    induction s with
    | nil => rfl
    | cons a s ih =>
      have hi := ih (fun c hc hh => h c hc (hh.trans (List.suffix_cons _ _).isInfix))
      by_cases ha : a = 'D'
      · subst ha
        rw [fixD, if_pos rfl, hi]
        cases s with
        | nil => rfl
        | cons b s =>
          have hb : exponentRule b = none := by
            by_contra hb
            exact h b ((hrule b).2 hb) ⟨[], s, rfl⟩
          simp [hb]
      · rw [fixD_of_ne ha, hi]

/-- C29 as stated is false: the literal `1.0D0` is not converted, and the text of an identifier such
as `KD1` is changed. -/
theorem C29_false : ¬ C29_Statement := by
  intro h
  obtain ⟨qs, h1, h2⟩ := h [.ident "KD1".toList] ⟨by
    intro p hp
    rw [List.mem_singleton] at hp
    subst hp
    exact ⟨by decide, _, _, rfl, by decide⟩, List.isChain_singleton _⟩
  cases h1 with
  | cons hp hq =>
    cases hq
    rename_i q
    have : q = .ident "KD1".toList := by
      exact hp.symm
    subst this
    revert h2
    decide +kernel

theorem C29_zero_exponent : mapLoop mapListFull "1.0D0*KMT01".toList = "1.0D0*KMT01".toList ∧
    mapLoop mapListFull "KD1".toList = "KE+1".toList ∧
    mapLoop mapListFull "KD-3".toList = "KE-3".toList ∧
    mapLoop mapListPy "2.0D10".toList = "2.0D10".toList := by decide +kernel

/-- `2.5D-12*EXP(-3D2/TEMP)`. -/
example : ∃ ps, Spec.Expression ps ∧ (∀ p ∈ ps, p.Safe) ∧
    ps.flatMap (Spec.Piece.text 'D') = "2.5D-12*EXP(-3D2/TEMP)".toList ∧
    mapLoop mapListFull (ps.flatMap (Spec.Piece.text 'D')) = "2.5E-12*EXP(-3E+2/TEMP)".toList := by
  refine ⟨[.lit ⟨"2".toList, "5".toList, true, some false, "12".toList⟩, .op '*', .ident "EXP".toList,
    .op '(', .op '-', .lit ⟨"3".toList, [], false, none, "2".toList⟩, .op '/', .ident "TEMP".toList,
    .op ')'], ⟨?_, by decide⟩, ?_, by decide +kernel, by decide +kernel⟩
  · intro p hp
    simp only [List.mem_cons, List.not_mem_nil, or_false] at hp
    rcases hp with rfl | rfl | rfl | rfl | rfl | rfl | rfl | rfl | rfl
    · exact ⟨by decide, by decide, by decide, by decide, by decide, by decide⟩
    · show _ ∈ _; decide
    · exact ⟨by decide, _, _, rfl, by decide⟩
    · show _ ∈ _; decide
    · show _ ∈ _; decide
    · exact ⟨by decide, by decide, by decide, by decide, by decide, by decide⟩
    · show _ ∈ _; decide
    · exact ⟨by decide, _, _, rfl, by decide⟩
    · show _ ∈ _; decide
  · intro p hp
    simp only [List.mem_cons, List.not_mem_nil, or_false] at hp
    rcases hp with rfl | rfl | rfl | rfl | rfl | rfl | rfl | rfl | rfl
    · left; rfl
    · trivial
    · exact ⟨by decide, by decide⟩
    · trivial
    · trivial
    · right; exact ⟨_, _, rfl, by decide⟩
    · trivial
    · exact ⟨by decide, by decide⟩
    · trivial

end PyBox
