import Verif.Rate.Model
import Mathlib.Tactic.Common
import Mathlib.Data.List.Infix
import Mathlib.Data.List.Chain

/-!
# Lemmas about textual replacement
-/

namespace PyBox

theorem isPrefixOf_iff {a b : Str} : a.isPrefixOf b = true ↔ a <+: b := List.isPrefixOf_iff_prefix

/-! ### `replace` -/

theorem replaceGo_skip (old new : Str) : ∀ (k : Nat) (s : Str), k ≤ s.length →
    replaceGo old new k s = replaceGo old new 0 (s.drop k) := by
  intro k
  induction k with
  | zero => intro s _; rfl
  | succ k ih =>
    intro s hk
    cases s with
    | nil => simp at hk
    | cons a s => rw [replaceGo, ih s (by simpa using hk)]; rfl

theorem replaceAll_match {old new : Str} (hne : old ≠ []) (s : Str) :
    replaceAll old new (old ++ s) = new ++ replaceAll old new s := by
  obtain ⟨a, o, rfl⟩ := List.exists_cons_of_ne_nil hne
  unfold replaceAll
  rw [List.cons_append, replaceGo,
    if_pos (isPrefixOf_iff.2 (show a :: o <+: a :: (o ++ s) from ⟨s, rfl⟩)), replaceGo_skip _ _ _ _ (by simp)]
  simp

theorem replaceAll_copy {old new : Str} {a : Char} {s : Str} (h : ¬ old <+: a :: s) :
    replaceAll old new (a :: s) = a :: replaceAll old new s := by
  unfold replaceAll
  rw [replaceGo, if_neg (by rw [isPrefixOf_iff]; exact h)]

/-- Text without the pattern is copied. -/
theorem replaceAll_of_not_infix {old new : Str} : ∀ s : Str, ¬ old <:+: s → replaceAll old new s = s := by
  intro s
  induction s with
  | nil => intro _; rfl
  | cons a s ih =>
    intro h
    rw [replaceAll_copy (fun hp => h hp.isInfix), ih (fun hi => h (hi.trans (List.suffix_cons a s).isInfix))]

/-- Strong induction principle following the matches. -/
theorem replace_induct {old : Str} (hne : old ≠ []) {P : Str → Prop} (hnil : P [])
    (hmatch : ∀ s, P s → P (old ++ s)) (hcopy : ∀ a s, ¬ old <+: a :: s → P s → P (a :: s)) :
    ∀ s, P s := by
  intro s
  induction h : s.length using Nat.strongRecOn generalizing s with
  | ind n ih =>
    cases s with
    | nil => exact hnil
    | cons a s =>
      by_cases hp : old <+: a :: s
      · obtain ⟨t, ht⟩ := hp
        rw [← ht]
        apply hmatch
        apply ih t.length _ t rfl
        rw [← h, ← ht, List.length_append]
        have := List.length_pos_iff.2 hne
        omega
      · exact hcopy a s hp (ih s.length (by rw [← h]; simp) s rfl)

theorem prefix_cut {old : Str} {c : Char} (hc : c ∉ old) {a b : Str} (h : old <+: a ++ c :: b) :
    old <+: a := by
  rcases Nat.lt_or_ge a.length old.length with hl | hl
  · have h2 : a ++ [c] <+: a ++ c :: b := ⟨b, by simp⟩
    have h3 := List.prefix_of_prefix_length_le h2 h (by rw [List.length_append]; exact hl)
    exact absurd (h3.subset (by simp)) hc
  · exact List.prefix_of_prefix_length_le h ⟨c :: b, rfl⟩ hl

/-- A character that is not in the pattern cuts the text into independent parts. -/
theorem replaceAll_cut {old new : Str} (hne : old ≠ []) {c : Char} (hc : c ∉ old) (b : Str) : ∀ a : Str,
    replaceAll old new (a ++ c :: b) = replaceAll old new a ++ c :: replaceAll old new b := by
  have hfirst : ∀ s, ¬ old <+: c :: s := by
    intro s hp
    have := prefix_cut hc (a := []) hp
    exact hne (List.prefix_nil.1 this)
  refine replace_induct hne (P := fun a =>
    replaceAll old new (a ++ c :: b) = replaceAll old new a ++ c :: replaceAll old new b) ?_ ?_ ?_
  · rw [List.nil_append, replaceAll_copy (hfirst b)]; rfl
  · intro s ih
    rw [List.append_assoc, replaceAll_match hne, replaceAll_match hne, ih, List.append_assoc]
  · intro x s hp ih
    have hp' : ¬ old <+: x :: (s ++ c :: b) := fun hh => hp (prefix_cut hc (a := x :: s) hh)
    rw [List.cons_append, replaceAll_copy hp', replaceAll_copy hp, ih, List.cons_append]

/-- Adjacent pairs of the output of a replacement. -/
theorem replaceAll_chain {old new : Str} (hne : old ≠ []) {R : Char → Char → Prop}
    (hnew : new.IsChain R) (hnn : new ≠ [])
    (hafter : ∀ x ∈ new.getLast?, ∀ y, R x y) (hbefore : ∀ x, ∀ y ∈ new.head?, R x y) :
    ∀ s : Str, s.IsChain R → (replaceAll old new s).IsChain R := by
  have hhead : ∀ s : Str, ∀ y ∈ (replaceAll old new s).head?, y ∈ new.head? ∨ y ∈ s.head? := by
    refine replace_induct hne ?_ ?_ ?_
    · intro y hy; simp [replaceAll, replaceGo] at hy
    · intro s _ y hy
      left
      rw [replaceAll_match hne, List.head?_append_of_ne_nil _ hnn] at hy
      exact hy
    · intro a s hp _ y hy
      right
      rw [replaceAll_copy hp] at hy
      exact hy
  refine replace_induct hne (P := fun s => s.IsChain R → (replaceAll old new s).IsChain R) ?_ ?_ ?_
  · intro _; exact List.isChain_nil
  · intro s ih hs
    rw [replaceAll_match hne]
    rw [List.isChain_append] at hs
    rw [List.isChain_append]
    exact ⟨hnew, ih hs.2.1, fun x hx y _ => hafter x hx y⟩
  · intro a s hp ih hs
    rw [replaceAll_copy hp]
    rw [List.isChain_cons] at hs ⊢
    refine ⟨?_, ih hs.2⟩
    intro y hy
    rcases hhead s y hy with h | h
    · exact hbefore a y h
    · exact hs.1 y h

/-! ### Exponents -/

/-- Replace each `D` according to the character that follows it. -/
def fixD (f : Char → Option Str) : Str → Str
  | [] => []
  | a :: s => (if a = 'D' then (s.head?.bind f).getD ['D'] else [a]) ++ fixD f s

theorem fixD_of_ne {f : Char → Option Str} {a : Char} (h : a ≠ 'D') (s : Str) :
    fixD f (a :: s) = a :: fixD f s := by
  rw [fixD, if_neg h]; rfl

/-- `replace('Dc', t+'c')` is such a pass. -/
theorem replaceAll_D {c : Char} (hc : c ≠ 'D') (t : Str) (s : Str) :
    replaceAll ['D', c] (t ++ [c]) s = fixD (fun x => if x = c then some t else none) s := by
  revert s
  refine replace_induct (old := ['D', c]) (by simp) ?_ ?_ ?_
  · rfl
  · intro s ih
    rw [replaceAll_match (by simp), ih]
    simp only [List.cons_append, List.nil_append]
    rw [fixD, fixD_of_ne hc]
    simp
  · intro a s hp ih
    rw [replaceAll_copy hp, ih, fixD]
    by_cases ha : a = 'D'
    · subst ha
      rw [if_pos rfl]
      cases s with
      | nil => rfl
      | cons b s =>
        have hb : b ≠ c := by
          intro hh
          subst hh
          exact hp ⟨s, rfl⟩
        simp [hb]
    · rw [if_neg ha]; rfl

theorem fixD_head (f : Char → Option Str) (hf : ∀ c t, f c = some t → t.head? = some 'E') (s : Str) :
    (fixD f s).head? = s.head? ∨ (s.head? = some 'D' ∧ (fixD f s).head? = some 'E') := by
  cases s with
  | nil => left; rfl
  | cons a s =>
    rw [fixD]
    by_cases ha : a = 'D'
    · subst ha
      rw [if_pos rfl]
      cases h : s.head?.bind f with
      | none => left; rfl
      | some t =>
        right
        obtain ⟨c, -, hc⟩ := Option.bind_eq_some_iff.1 h
        have := hf c t hc
        refine ⟨rfl, ?_⟩
        cases t with
        | nil => simp at this
        | cons x t => simpa using this
    · left; rw [if_neg ha]; rfl

/-- Text made of no `D` is copied and does not interact with what follows. -/
theorem fixD_append_of_not_mem (f : Char → Option Str) {t : Str} (ht : 'D' ∉ t) (s : Str) :
    fixD f (t ++ s) = t ++ fixD f s := by
  induction t with
  | nil => rfl
  | cons a t ih =>
    rw [List.mem_cons, not_or] at ht
    rw [List.cons_append, fixD_of_ne (Ne.symm ht.1), ih ht.2]; rfl

/-- Two passes combine into one. -/
theorem fixD_comp (f g : Char → Option Str) (hf : ∀ c t, f c = some t → t.head? = some 'E' ∧ 'D' ∉ t)
    (hgE : g 'E' = none) (hgD : g 'D' = none) (s : Str) :
    fixD g (fixD f s) = fixD (fun c => (f c).or (g c)) s := by
  induction s with
  | nil => rfl
  | cons a s ih =>
    by_cases ha : a = 'D'
    · subst ha
      rw [fixD, if_pos rfl, fixD, if_pos rfl]
      cases h : s.head?.bind f with
      | some t =>
        obtain ⟨c, hs, hc⟩ := Option.bind_eq_some_iff.1 h
        rw [hs]
        simp only [Option.getD_some, Option.bind_some, hc, Option.some_or]
        rw [fixD_append_of_not_mem g (hf c t hc).2, ih]
      | none =>
        simp only [Option.getD_none, List.cons_append, List.nil_append]
        rw [fixD, if_pos rfl, ih]
        congr 2
        rcases fixD_head f (fun c t h => (hf c t h).1) s with h1 | ⟨h1, h2⟩
        · rw [h1]
          cases hs : s.head? with
          | none => rfl
          | some c =>
            rw [hs, Option.bind_some] at h
            simp [h]
        · rw [h1, Option.bind_some] at h
          rw [h2, h1]
          simp [hgE, hgD, h]
    · rw [fixD_of_ne ha, fixD_of_ne ha, fixD_of_ne ha, ih]

/-- A character with no rule cuts the text. -/
theorem fixD_cut (f : Char → Option Str) {c : Char} (hc : f c = none) (hD : c ≠ 'D') (a b : Str) :
    fixD f (a ++ c :: b) = fixD f a ++ c :: fixD f b := by
  induction a with
  | nil => rw [List.nil_append, fixD_of_ne hD]; rfl
  | cons x a ih =>
    rw [List.cons_append, fixD, fixD, ih, ← List.append_assoc]
    congr 2
    cases a with
    | nil => simp [hc]
    | cons y a => rfl

/-- The rule of the D-conversions: a sign keeps the sign, a digit other than zero gets a plus. -/
def exponentRule (c : Char) : Option Str :=
  if c = '-' ∨ c = '+' then some ['E']
  else if c ∈ ['1', '2', '3', '4', '5', '6', '7', '8', '9'] then some ['E', '+']
  else none

/-- A list of such replacements, one after the other. -/
theorem mapLoop_fixD (L : List (Char × Str)) : ∀ (f : Char → Option Str) (s : Str),
    (∀ p ∈ L, p.1 ≠ 'D' ∧ p.1 ≠ 'E' ∧ p.2.head? = some 'E' ∧ 'D' ∉ p.2) →
    (∀ c t, f c = some t → t.head? = some 'E' ∧ 'D' ∉ t) →
    mapLoop (L.map (fun p => (['D', p.1], p.2 ++ [p.1]))) (fixD f s) =
      fixD (fun x => L.foldl (fun o p => o.or (if x = p.1 then some p.2 else none)) (f x)) s := by
  induction L with
  | nil => intros; rfl
  | cons p L ih =>
    intro f s hL hf
    obtain ⟨h1, h2, h3, h4⟩ := hL p (List.mem_cons_self ..)
    have hstep : replaceAll ['D', p.1] (p.2 ++ [p.1]) (fixD f s) =
        fixD (fun x => (f x).or (if x = p.1 then some p.2 else none)) s := by
      rw [replaceAll_D h1, fixD_comp f _ hf (by simp [Ne.symm h2]) (by simp [Ne.symm h1])]
    have : mapLoop ((p :: L).map (fun p => (['D', p.1], p.2 ++ [p.1]))) (fixD f s) =
        mapLoop (L.map (fun p => (['D', p.1], p.2 ++ [p.1])))
          (replaceAll ['D', p.1] (p.2 ++ [p.1]) (fixD f s)) := rfl
    rw [this, hstep, ih _ s (fun q hq => hL q (List.mem_cons_of_mem _ hq))]
    · rfl
    · intro c t h
      cases hfc : f c with
      | some u => rw [hfc, Option.some_or] at h; injection h with h; subst h; exact hf c u hfc
      | none =>
        rw [hfc, Option.none_or] at h
        split at h
        · injection h with h; subst h; exact ⟨h3, h4⟩
        · cases h

theorem fixD_none (s : Str) : fixD (fun _ => none) s = s := by
  induction s with
  | nil => rfl
  | cons a s ih =>
    rw [fixD, ih]
    cases s <;> by_cases ha : a = 'D' <;> simp [ha]

theorem mapLoop_full (s : Str) : mapLoop mapListFull s = fixD exponentRule s := by
  have h := mapLoop_fixD [('-', ['E']), ('+', ['E']), ('1', ['E', '+']), ('2', ['E', '+']),
    ('3', ['E', '+']), ('4', ['E', '+']), ('5', ['E', '+']), ('6', ['E', '+']), ('7', ['E', '+']),
    ('8', ['E', '+']), ('9', ['E', '+'])] (fun _ => none) s (by decide) (by intro c t h; cases h)
  rw [fixD_none] at h
  refine Eq.trans h ?_
  congr 1
  funext c
  unfold exponentRule
  by_cases c1 : c = '-'
  · subst c1; rfl
  by_cases c2 : c = '+'
  · subst c2; rfl
  by_cases c3 : c ∈ ['1', '2', '3', '4', '5', '6', '7', '8', '9']
  · rw [if_neg (by simp [c1, c2]), if_pos c3]
    simp only [List.mem_cons, List.not_mem_nil, or_false] at c3
    rcases c3 with rfl | rfl | rfl | rfl | rfl | rfl | rfl | rfl | rfl <;> rfl
  · rw [if_neg (by simp [c1, c2]), if_neg c3]
    simp only [List.mem_cons, List.not_mem_nil, or_false, not_or] at c3
    simp [c1, c2, c3]

/-- The same for the two rules of the plain Python converter. -/
theorem mapLoop_py (s : Str) : mapLoop mapListPy s =
    fixD (fun c => if c = '-' ∨ c = '+' then some ['E'] else none) s := by
  have h := mapLoop_fixD [('-', ['E']), ('+', ['E'])] (fun _ => none) s (by decide)
    (by intro c t h; cases h)
  rw [fixD_none] at h
  refine Eq.trans h ?_
  congr 1
  funext c
  by_cases c1 : c = '-'
  · subst c1; rfl
  by_cases c2 : c = '+'
  · subst c2; rfl
  simp [c1, c2]

/-- Only the last entry of the function list is ever applied. -/
theorem mathLoop_last (ops : List (Str × Str)) (op : Str × Str) (rate : Str) :
    mathLoop (ops ++ [op]) rate = replaceAll op.1 op.2 rate := by
  unfold mathLoop
  rw [List.foldl_append]; rfl

theorem convertFortran_eq (s : Str) :
    convertFortran s = fixD exponentRule (replaceAll "dlog".toList "LOG".toList s) := by
  unfold convertFortran
  rw [mapLoop_full]
  rfl

/-- The numba converter before the bracket step. -/
def numbaText (s : Str) : Str := fixD exponentRule (replaceAll "EXP".toList "numba_exp".toList s)

theorem convertNumba_eq (s : Str) : convertNumba s = photoBrackets (numbaText s) := by
  unfold convertNumba
  rw [mapLoop_full]
  rfl

end PyBox
