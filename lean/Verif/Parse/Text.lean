import Verif.Parse.Scan
import Mathlib.Data.List.TakeWhile

/-!
# Laws of the string built-ins
-/

namespace PyBox

/-! ### `split()` -/

theorem words_space {a : Char} (h : isSpace a = true) (s : Str) : words (a :: s) = words s := by
  rw [words.eq_def]; simp [h]

theorem words_cons {a : Char} (h : isSpace a = false) (s : Str) :
    words (a :: s) = (a :: s.takeWhile (fun c => !isSpace c)) ::
      words (s.dropWhile (fun c => !isSpace c)) := by
  induction s generalizing a with
  | nil => simp [words, h]
  | cons b s ih =>
    rw [words]
    simp only [h, Bool.false_eq_true, if_false]
    by_cases hb : isSpace b = true
    · simp [hb]
    · have hb' : isSpace b = false := by simpa using hb
      simp only [hb', Bool.false_eq_true, if_false]
      rw [ih hb']
      simp [hb']

theorem words_eq_nil_iff (s : Str) : words s = [] ↔ ∀ c ∈ s, isSpace c = true := by
  induction s with
  | nil => simp [words]
  | cons a s ih =>
    by_cases h : isSpace a = true
    · rw [words_space h, ih]; simp [h]
    · rw [words_cons (by simpa using h)]; simp [h]

/-- `"".join(s.split())` removes exactly the white space. -/
theorem removeSpace_eq (s : Str) : removeSpace s = s.filter (fun c => !isSpace c) := by
  unfold removeSpace
  induction hn : s.length using Nat.strong_induction_on generalizing s with
  | _ n ih =>
    cases s with
    | nil => simp [words]
    | cons a s =>
      by_cases h : isSpace a = true
      · rw [words_space h, ih s.length (by simp at hn; omega) s rfl]
        simp [h]
      · have h' : isSpace a = false := by simpa using h
        rw [words_cons h', List.flatten_cons]
        have hlen : (s.dropWhile (fun c => !isSpace c)).length < n := by
          have := (List.dropWhile_sublist (l := s) (fun c => !isSpace c)).length_le
          simp at hn; omega
        rw [ih _ hlen _ rfl]
        have hsplit := List.takeWhile_append_dropWhile (p := fun c => !isSpace c) (l := s)
        conv_rhs => rw [← hsplit]
        rw [List.filter_cons_of_pos (by simp [h']), List.filter_append]
        have : (s.takeWhile (fun c => !isSpace c)).filter (fun c => !isSpace c) =
            s.takeWhile (fun c => !isSpace c) := by
          rw [List.filter_eq_self]
          intro x hx
          exact List.all_eq_true.1 (List.all_takeWhile (p := fun c => !isSpace c) (l := s)) x hx
        rw [this, List.cons_append]

theorem words_append_space (s t : Str) (ht : ∀ c ∈ t, isSpace c = true) : words (s ++ t) = words s := by
  induction hn : s.length using Nat.strong_induction_on generalizing s with
  | _ n ih =>
    cases s with
    | nil => simp only [List.nil_append, words]; exact (words_eq_nil_iff t).2 ht
    | cons a s =>
      by_cases h : isSpace a = true
      · rw [List.cons_append, words_space h, words_space h]
        exact ih s.length (by simp at hn; omega) s rfl
      · have h' : isSpace a = false := by simpa using h
        rw [List.cons_append, words_cons h', words_cons h']
        have hlen : (s.dropWhile (fun c => !isSpace c)).length < n := by
          have := (List.dropWhile_sublist (l := s) (fun c => !isSpace c)).length_le
          simp at hn; omega
        have htake : (s ++ t).takeWhile (fun c => !isSpace c) = s.takeWhile (fun c => !isSpace c) := by
          rw [List.takeWhile_append]
          split
          · rename_i hl
            have : t.takeWhile (fun c => !isSpace c) = [] := by
              cases t with
              | nil => rfl
              | cons b t => simp [ht b (by simp)]
            rw [this, List.append_nil]
            exact (List.takeWhile_prefix _).eq_of_length hl |>.symm
          · rfl
        have hdrop : words ((s ++ t).dropWhile (fun c => !isSpace c)) =
            words (s.dropWhile (fun c => !isSpace c)) := by
          rw [List.dropWhile_append]
          split
          · rename_i he
            have he' : s.dropWhile (fun c => !isSpace c) = [] := by simpa using he
            rw [he']
            have : words (t.dropWhile (fun c => !isSpace c)) = [] := by
              rw [words_eq_nil_iff]
              intro c hc
              exact ht c ((List.dropWhile_sublist _).subset hc)
            rw [this]; rfl
          · exact ih _ hlen _ rfl
        rw [htake, hdrop]

theorem words_dropWhile (p : Char → Bool) (hp : ∀ c, p c = true → isSpace c = true) (s : Str) :
    words (s.dropWhile p) = words s := by
  induction s with
  | nil => rfl
  | cons a s ih =>
    by_cases h : p a = true
    · rw [List.dropWhile_cons_of_pos h, ih, words_space (hp a h)]
    · rw [List.dropWhile_cons_of_neg h]

/-- Stripping white space does not change the words. -/
theorem words_stripBy (p : Char → Bool) (hp : ∀ c, p c = true → isSpace c = true) (s : Str) :
    words (stripBy p s) = words s := by
  unfold stripBy
  rw [← words_dropWhile p hp s]
  generalize s.dropWhile p = t
  have h := List.takeWhile_append_dropWhile (p := p) (l := t.reverse)
  have h2 : t = (t.reverse.dropWhile p).reverse ++ (t.reverse.takeWhile p).reverse := by
    rw [← List.reverse_append, h, List.reverse_reverse]
  conv_rhs => rw [h2]
  rw [words_append_space]
  intro c hc
  rw [List.mem_reverse] at hc
  exact hp c (List.all_eq_true.1 (List.all_takeWhile (p := p) (l := t.reverse)) c hc)

theorem isSpace_blank (c : Char) (h : (c == ' ') = true) : isSpace c = true := by
  have : c = ' ' := by simpa using h
  subst this; decide

/-- A single word with white space around it. -/
theorem words_single (pre w post : Str) (hpre : ∀ c ∈ pre, isSpace c = true)
    (hpost : ∀ c ∈ post, isSpace c = true) (hw : w ≠ []) (hw' : ∀ c ∈ w, isSpace c = false) :
    words (pre ++ w ++ post) = [w] := by
  rw [words_append_space _ _ hpost]
  have : words (pre ++ w) = words w := by
    induction pre with
    | nil => rfl
    | cons a pre ih =>
      rw [List.cons_append, words_space (hpre a (by simp))]
      exact ih (fun c hc => hpre c (List.mem_cons_of_mem _ hc))
  rw [this]
  cases w with
  | nil => exact absurd rfl hw
  | cons a w =>
    rw [words_cons (hw' a (by simp))]
    have hall : ∀ c ∈ w, (!isSpace c) = true := fun c hc => by simp [hw' c (List.mem_cons_of_mem _ hc)]
    have h1 : w.takeWhile (fun c => !isSpace c) = w := by
      rw [List.takeWhile_eq_self_iff]; exact hall
    have h2 : w.dropWhile (fun c => !isSpace c) = [] := by
      rw [List.dropWhile_eq_nil_iff]; exact hall
    rw [h1, h2]; rfl

/-- Stripping white space before removing all white space changes nothing. -/
theorem removeSpace_strip (s : Str) : removeSpace (stripBy isSpace s) = removeSpace s := by
  unfold removeSpace
  rw [words_stripBy isSpace (fun _ h => h)]

/-! ### `split(c)` -/

theorem splitOn_ne_nil (c : Char) (s : Str) : splitOn c s ≠ [] := by
  cases s with
  | nil => simp [splitOn]
  | cons a s =>
    rw [splitOn]
    split
    · simp
    · split <;> simp

theorem splitOn_of_not_mem (c : Char) (w : Str) (h : c ∉ w) : splitOn c w = [w] := by
  induction w with
  | nil => rfl
  | cons a w ih =>
    simp only [List.mem_cons, not_or] at h
    rw [splitOn, if_neg (fun e : a = c => h.1 e.symm), ih h.2]

theorem splitOn_append (c : Char) (w r : Str) (h : c ∉ w) :
    splitOn c (w ++ c :: r) = w :: splitOn c r := by
  induction w with
  | nil => simp [splitOn]
  | cons a w ih =>
    simp only [List.mem_cons, not_or] at h
    rw [List.cons_append, splitOn, if_neg (fun e : a = c => h.1 e.symm), ih h.2]

/-! ### `replace('\n','')` -/

theorem removeChar_append (c : Char) (s t : Str) :
    removeChar c (s ++ t) = removeChar c s ++ removeChar c t := by simp [removeChar]

theorem removeChar_of_not_mem (c : Char) (s : Str) (h : c ∉ s) : removeChar c s = s := by
  unfold removeChar
  rw [List.filter_eq_self]
  intro a ha
  simp only [Bool.not_eq_true', beq_eq_false_iff_ne, ne_eq]
  rintro rfl
  exact h ha

theorem removeChar_idem (c : Char) (s : Str) : removeChar c (removeChar c s) = removeChar c s :=
  removeChar_of_not_mem c _ (not_mem_removeChar c s)

/-! ### Numbers -/

theorem digitsVal_toDigits (n : Nat) : digitsVal (Nat.toDigits 10 n) = n :=
  Nat.ofDigitChars_toDigits (by decide) (by decide)

theorem isDigit_eq (c : Char) : isDigit c = c.isDigit := by
  unfold isDigit Char.isDigit
  have h : ∀ a b : UInt32, (a ≤ b) ↔ a.toNat ≤ b.toNat := fun _ _ => Iff.rfl
  rw [Bool.eq_iff_iff]
  simp only [Bool.and_eq_true, decide_eq_true_eq]
  rfl

theorem isDigit_toDigits (n : Nat) : ∀ c ∈ Nat.toDigits 10 n, isDigit c = true := by
  intro c hc
  rw [isDigit_eq]
  exact Nat.isDigit_of_mem_toDigits (by decide) (by decide) hc

theorem isDigit_range {c : Char} (h : isDigit c = true) : 48 ≤ c.toNat ∧ c.toNat ≤ 57 := by
  unfold isDigit at h
  simp only [Bool.and_eq_true, decide_eq_true_eq] at h
  exact h

theorem not_isDigit_of {c d : Char} (hd : isDigit d = false) (hc : isDigit c = true) : c ≠ d := by
  rintro rfl; rw [hd] at hc; cases hc

theorem isSpace_of_isDigit {c : Char} (h : isDigit c = true) : isSpace c = false := by
  have := isDigit_range h
  unfold isSpace
  simp only [Bool.or_eq_false_iff, Bool.and_eq_false_iff, decide_eq_false_iff_not, beq_eq_false_iff_ne]
  refine ⟨⟨⟨⟨⟨⟨⟨⟨⟨⟨?_, ?_⟩, ?_⟩, ?_⟩, ?_⟩, ?_⟩, ?_⟩, ?_⟩, ?_⟩, ?_⟩, ?_⟩ <;> omega

theorem stripBy_of_ends (p : Char → Bool) (w : Str) (h : ∀ c ∈ w, p c = false) : stripBy p w = w := by
  unfold stripBy
  have h1 : w.dropWhile p = w := by
    cases w with
    | nil => rfl
    | cons a w => rw [List.dropWhile_cons_of_neg (by simp [h a (by simp)])]
  rw [h1]
  have h2 : w.reverse.dropWhile p = w.reverse := by
    cases hr : w.reverse with
    | nil => rfl
    | cons a r =>
      have : a ∈ w := by rw [← List.mem_reverse, hr]; simp
      rw [List.dropWhile_cons_of_neg (by simp [h a this])]
  rw [h2, List.reverse_reverse]

theorem stripBy_padded (p : Char → Bool) (pre w post : Str) (hpre : ∀ c ∈ pre, p c = true)
    (hpost : ∀ c ∈ post, p c = true) (h : ∀ c ∈ w, p c = false) :
    stripBy p (pre ++ w ++ post) = w := by
  have h1 : (pre ++ w ++ post).dropWhile p = (w ++ post).dropWhile p := by
    rw [List.append_assoc, List.dropWhile_append]
    have : pre.dropWhile p = [] := by rw [List.dropWhile_eq_nil_iff]; exact hpre
    simp [this]
  unfold stripBy
  rw [h1]
  cases w with
  | nil =>
    have : post.dropWhile p = [] := by rw [List.dropWhile_eq_nil_iff]; exact hpost
    simp [this]
  | cons a w =>
    rw [List.cons_append, List.dropWhile_cons_of_neg (by simp [h a (by simp)])]
    rw [← List.cons_append, List.reverse_append, List.dropWhile_append]
    have : post.reverse.dropWhile p = [] := by
      rw [List.dropWhile_eq_nil_iff]; intro c hc; exact hpost c (by simpa using hc)
    rw [this]
    simp only [List.isEmpty_nil, if_true]
    have := stripBy_of_ends p (a :: w) h
    unfold stripBy at this
    rw [List.dropWhile_cons_of_neg (by simp [h a (by simp)])] at this
    exact this

theorem pyInt_digits (ds : Str) (hne : ds ≠ []) (hd : ∀ c ∈ ds, isDigit c = true) :
    pyInt ds = .ok (digitsVal ds : Int) := by
  unfold pyInt
  have hs : stripBy isSpace ds = ds :=
    stripBy_of_ends _ _ (fun c hc => isSpace_of_isDigit (hd c hc))
  have hsign : ∀ d : Char, isDigit d = false → ∀ r, ds ≠ d :: r := by
    intro d hdd r h
    have := hd d (by rw [h]; simp)
    rw [hdd] at this; cases this
  have hu : '_' ∉ ds := by
    intro h; have := hd _ h; revert this; decide
  simp only [hs]
  split
  · exact absurd rfl (hsign '-' (by decide) _)
  · exact absurd rfl (hsign '+' (by decide) _)
  · dsimp only
    rw [splitOn_of_not_mem _ _ hu]
    have : (!ds.isEmpty && ds.all isDigit) = true := by
      simp only [Bool.and_eq_true, Bool.not_eq_true', List.isEmpty_eq_false_iff]
      exact ⟨hne, List.all_eq_true.2 hd⟩
    simp [this]

theorem pyInt_toDigits (n : Nat) : pyInt (Nat.toDigits 10 n) = .ok (n : Int) := by
  rw [pyInt_digits _ ?_ (isDigit_toDigits n), digitsVal_toDigits]
  intro h
  have := congrArg List.length h
  have h2 := Nat.length_toDigits_pos (b := 10) (n := n)
  simp at this

end PyBox
