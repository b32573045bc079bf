import Verif.Rate.Eval
import Verif.Rate.FactsInputs
import Verif.Props.RateLines
import Verif.Props.RateFiles

/-!
# The whole rate file as a program

The text of a generated rate file, read as a program, is the fixed program followed by one assignment for
each entry of the rate table.
-/

namespace PyBox
namespace Rl

/-! ### Characters of a readable text -/

/-- Characters that can occur in tokens. -/
def tokenChar (c : Char) : Bool :=
  isSpace c || isIdent c || decide (c ∈ ['+', '-', '*', '/', '(', ')', '[', ']', '=', ':', ',', '<'])

theorem lexExp_rest (b : Backend) (s : Str) : ∃ u, s = u ++ (lexExp b s).2 ∧ ∀ c ∈ u, tokenChar c = true := by
  have hdig : ∀ u : Str, ∀ c ∈ u.takeWhile isDigit, tokenChar c = true := by
    intro u c hc
    have := List.mem_takeWhile_imp hc
    simp [tokenChar, isIdent, this]
  have hlet : ∀ c, isExpLetter b c = true → tokenChar c = true := by
    intro c hc
    unfold isExpLetter at hc
    simp only [Bool.or_eq_true, Bool.and_eq_true, beq_iff_eq] at hc
    rcases hc with (rfl | rfl) | ⟨-, rfl | rfl⟩ <;> decide
  unfold lexExp
  split
  · rename_i c t
    split
    · rename_i hc
      split
      · rename_i u
        refine ⟨c :: '+' :: u.takeWhile isDigit, ?_, ?_⟩
        · simp [List.takeWhile_append_dropWhile]
        · intro x hx
          rcases List.mem_cons.1 hx with rfl | hx
          · exact hlet _ hc
          · rcases List.mem_cons.1 hx with rfl | hx
            · decide
            · exact hdig u x hx
      · rename_i u
        refine ⟨c :: '-' :: u.takeWhile isDigit, ?_, ?_⟩
        · simp [List.takeWhile_append_dropWhile]
        · intro x hx
          rcases List.mem_cons.1 hx with rfl | hx
          · exact hlet _ hc
          · rcases List.mem_cons.1 hx with rfl | hx
            · decide
            · exact hdig u x hx
      · refine ⟨c :: t.takeWhile isDigit, ?_, ?_⟩
        · simp [List.takeWhile_append_dropWhile]
        · intro x hx
          rcases List.mem_cons.1 hx with rfl | hx
          · exact hlet _ hc
          · exact hdig t x hx
    · exact ⟨[], rfl, fun _ h => absurd h (by simp)⟩
  · exact ⟨[], rfl, fun _ h => absurd h (by simp)⟩

theorem lexNum_rest (b : Backend) (s : Str) : ∃ u, s = u ++ (lexNum b s).2 ∧ ∀ c ∈ u, tokenChar c = true := by
  have hdig : ∀ u : Str, ∀ c ∈ u.takeWhile isDigit, tokenChar c = true := by
    intro u c hc
    have := List.mem_takeWhile_imp hc
    simp [tokenChar, isIdent, this]
  have key : ∀ frac r, lexNum b s = (((digitsVal (s.takeWhile isDigit ++ frac) : ℚ) *
      tenPow ((lexExp b r).1 - frac.length)), (lexExp b r).2) → (∃ u, s = u ++ r ∧ ∀ c ∈ u, tokenChar c = true) →
      ∃ u, s = u ++ (lexNum b s).2 ∧ ∀ c ∈ u, tokenChar c = true := by
    intro frac r he ⟨u, hu, hc⟩
    obtain ⟨v, hv, hd⟩ := lexExp_rest b r
    refine ⟨u ++ v, ?_, ?_⟩
    · rw [he, List.append_assoc, ← hv, ← hu]
    · intro c h
      rcases List.mem_append.1 h with h | h
      · exact hc c h
      · exact hd c h
  have hw := List.takeWhile_append_dropWhile (p := isDigit) (l := s)
  rcases hr : s.dropWhile isDigit with - | ⟨a, t⟩
  · refine key [] [] ?_ ⟨s.takeWhile isDigit, by rw [hr] at hw; exact hw.symm, hdig s⟩
    unfold lexNum
    simp only [hr]
  · by_cases ha : a = '.'
    · subst ha
      refine key (t.takeWhile isDigit) (t.dropWhile isDigit) ?_
        ⟨s.takeWhile isDigit ++ '.' :: t.takeWhile isDigit, ?_, ?_⟩
      · unfold lexNum
        simp only [hr]
      · rw [List.append_assoc, List.cons_append, List.takeWhile_append_dropWhile, ← hr, hw]
      · intro c h
        rcases List.mem_append.1 h with h | h
        · exact hdig s c h
        · rcases List.mem_cons.1 h with rfl | h
          · decide
          · exact hdig t c h
    · refine key [] (a :: t) ?_ ⟨s.takeWhile isDigit, by rw [← hr]; exact hw.symm, hdig s⟩
      unfold lexNum
      simp only [hr]
      split
      · rename_i h; cases h; exact absurd rfl ha
      · rfl

theorem lex_chars (b : Backend) : ∀ (n : Nat) (s : Str) (ts : List Tk), lex b n s = some ts →
    ∀ c ∈ s, tokenChar c = true := by
  intro n
  induction n with
  | zero => intro s ts h; simp [lex] at h
  | succ n ih =>
    intro s ts h
    cases s with
    | nil => intro c hc; simp at hc
    | cons a s =>
      rw [lex] at h
      split at h
      · rename_i ha
        intro c hc
        rcases List.mem_cons.1 hc with rfl | hc
        · simp [tokenChar, ha]
        · exact ih s ts h c hc
      · split at h
        · obtain ⟨ts', h', -⟩ := Option.map_eq_some_iff.1 h
          obtain ⟨u, hu, hok⟩ := lexNum_rest b (a :: s)
          intro c hc
          rw [hu] at hc
          rcases List.mem_append.1 hc with hc | hc
          · exact hok c hc
          · exact ih _ ts' h' c hc
        · split at h
          · obtain ⟨ts', h', -⟩ := Option.map_eq_some_iff.1 h
            intro c hc
            rw [← List.takeWhile_append_dropWhile (p := isIdent) (l := a :: s)] at hc
            rcases List.mem_append.1 hc with hc | hc
            · have := List.mem_takeWhile_imp hc
              simp [tokenChar, this]
            · exact ih _ ts' h' c hc
          · split at h
            · rename_i hp
              obtain ⟨ts', h', -⟩ := Option.map_eq_some_iff.1 h
              cases s with
              | nil => simp at hp
              | cons a' s =>
                intro c hc
                rcases List.mem_cons.1 hc with rfl | hc
                · rw [hp.1]; decide
                · rcases List.mem_cons.1 hc with rfl | hc
                  · have : c = '*' := by simpa using hp.2
                    rw [this]; decide
                  · exact ih _ ts' h' c hc
            · split at h
              · rename_i hp
                obtain ⟨ts', h', -⟩ := Option.map_eq_some_iff.1 h
                cases s with
                | nil => simp at hp
                | cons a' s =>
                  intro c hc
                  rcases List.mem_cons.1 hc with rfl | hc
                  · rw [hp.1]; decide
                  · rcases List.mem_cons.1 hc with rfl | hc
                    · have : c = '=' := by simpa using hp.2
                      rw [this]; decide
                    · exact ih _ ts' h' c hc
              · split at h
                · rename_i hm
                  obtain ⟨ts', h', -⟩ := Option.map_eq_some_iff.1 h
                  intro c hc
                  rcases List.mem_cons.1 hc with rfl | hc
                  · simp only [List.mem_cons, List.not_mem_nil, or_false] at hm
                    simp only [tokenChar, Bool.or_eq_true, decide_eq_true_eq, List.mem_cons, List.not_mem_nil,
                      or_false]
                    right
                    tauto
                  · exact ih _ ts' h' c hc
                · cases h

/-! ### More fuel -/

theorem lex_mono (b : Backend) : ∀ (n m : Nat) (s : Str) (ts : List Tk), n ≤ m → lex b n s = some ts →
    lex b m s = some ts := by
  intro n
  induction n with
  | zero => intro m s ts _ h; simp [lex] at h
  | succ n ih =>
    intro m s ts hm h
    obtain ⟨m, rfl⟩ : ∃ m', m = m' + 1 := ⟨m - 1, by omega⟩
    have hm : n ≤ m := by omega
    cases s with
    | nil => rw [lex] at h ⊢; exact h
    | cons a s =>
      have lift : ∀ (u : Str) (f : List Tk → List Tk), (lex b n u).map f = some ts →
          (lex b m u).map f = some ts := by
        intro u f hu
        obtain ⟨ts', h', he⟩ := Option.map_eq_some_iff.1 hu
        rw [ih m u ts' hm h', Option.map_some, he]
      rw [lex] at h ⊢
      split at h
      · rename_i h1; rw [if_pos h1]; exact ih m s ts hm h
      · rename_i h1
        rw [if_neg h1]
        split at h
        · rename_i h2; rw [if_pos h2]; exact lift _ _ h
        · rename_i h2
          rw [if_neg h2]
          split at h
          · rename_i h3; rw [if_pos h3]; exact lift _ _ h
          · rename_i h3
            rw [if_neg h3]
            split at h
            · rename_i h4; rw [if_pos h4]; exact lift _ _ h
            · rename_i h4
              rw [if_neg h4]
              split at h
              · rename_i h5; rw [if_pos h5]; exact lift _ _ h
              · rename_i h5
                rw [if_neg h5]
                split at h
                · rename_i h6; rw [if_pos h6]; exact lift _ _ h
                · cases h

/-! ### Lines one after the other -/

theorem while_append {α : Type*} (f : α → Bool) : ∀ (l m : List α), l.dropWhile f ≠ [] →
    (l ++ m).takeWhile f = l.takeWhile f ∧ (l ++ m).dropWhile f = l.dropWhile f ++ m := by
  intro l m
  induction l with
  | nil => intro h; exact absurd rfl h
  | cons a l ih =>
    intro h
    rw [List.dropWhile_cons] at h
    by_cases ha : f a = true
    · rw [if_pos ha] at h
      obtain ⟨h1, h2⟩ := ih h
      simp only [List.cons_append, List.takeWhile_cons, List.dropWhile_cons, if_pos ha, h1, h2]
      exact ⟨trivial, trivial⟩
    · simp only [List.cons_append, List.takeWhile_cons, List.dropWhile_cons, if_neg ha]
      exact ⟨trivial, trivial⟩

/-- A sealed text followed by lines that parse. -/
theorem parseLines_append (b : Backend) (ms : List (Nat × Str)) (q : List Stmt)
    (hq : ∀ m, ms.length < m → parseLines b m ms = some q) : ∀ (n : Nat) (ls : List (Nat × Str))
    (p : List Stmt), sealedLines b n ls = true → parseLines b n ls = some p →
    ∀ m, n + ms.length ≤ m → parseLines b m (ls ++ ms) = some (p ++ q) := by
  intro n
  induction n with
  | zero => intro ls p _ h; simp [parseLines] at h
  | succ n ih =>
    intro ls p hs h m hm
    obtain ⟨m, rfl⟩ : ∃ m', m = m' + 1 := ⟨m - 1, by omega⟩
    have hm' : n + ms.length ≤ m := by omega
    cases ls with
    | nil =>
      rw [parseLines] at h
      rw [← Option.some.inj h]
      exact hq _ (by omega)
    | cons l ls =>
      rw [sealedLines] at hs
      rw [parseLines] at h
      rw [List.cons_append, parseLines]
      by_cases hif : "if ".toList.isPrefixOf l.2 = true
      · rw [if_pos hif] at h hs ⊢
        dsimp only at hs
        generalize hf : (fun m : Nat × Str => if b = .fortran then
          !(m.2 == "else".toList || m.2 == "end if".toList) else decide (l.1 < m.1)) = f at h hs ⊢
        obtain ⟨⟨x, y⟩, hxy, h⟩ := Option.bind_eq_some_iff.1 h
        obtain ⟨t, ht, h⟩ := Option.bind_eq_some_iff.1 h
        rcases hd : ls.dropWhile f with - | ⟨e, ls'⟩
        · rw [hd] at hs; cases hs
        · obtain ⟨w1, w2⟩ := while_append f ls ms (by rw [hd]; simp)
          rw [hd] at h hs w2
          dsimp only at h hs
          rw [Bool.and_eq_true, Bool.not_eq_true', List.isEmpty_eq_false_iff] at hs
          obtain ⟨hne, hs⟩ := hs
          obtain ⟨v1, v2⟩ := while_append f ls' ms hne
          refine Option.bind_eq_some_iff.2 ⟨(x, y), hxy, Option.bind_eq_some_iff.2 ⟨t, ?_, ?_⟩⟩
          · rw [w1]; exact ht
          · rw [w2]
            dsimp only [List.cons_append]
            by_cases he : e.2 = "else".toList ∨ e.2 = "else:".toList
            · rw [if_pos he] at h ⊢
              obtain ⟨z, hz, h⟩ := Option.bind_eq_some_iff.1 h
              obtain ⟨rest, hr, h⟩ := Option.bind_eq_some_iff.1 h
              refine Option.bind_eq_some_iff.2 ⟨z, by rw [v1]; exact hz,
                Option.bind_eq_some_iff.2 ⟨rest ++ q, ?_, ?_⟩⟩
              · rw [v2]
                have := ih _ rest hs hr m hm'
                by_cases hb : b = .fortran
                · rw [if_pos hb] at this ⊢
                  rw [List.tail_append_of_ne_nil hne]
                  exact this
                · rw [if_neg hb] at this ⊢
                  exact this
              · rw [← Option.some.inj h]
                rfl
            · rw [if_neg he] at h; cases h
      · rw [if_neg hif] at h hs ⊢
        rcases hdec : (if b = .fortran then declaration l.2
            else if l.2 = "J=[None]*62".toList then some none else none) with - | (- | s)
        · rw [hdec] at h
          dsimp only at h ⊢
          obtain ⟨⟨v, e⟩, hve, h⟩ := Option.bind_eq_some_iff.1 h
          obtain ⟨rest, hr, h⟩ := Option.bind_eq_some_iff.1 h
          refine Option.bind_eq_some_iff.2 ⟨(v, e), hve, Option.bind_eq_some_iff.2
            ⟨rest ++ q, ih _ rest hs hr m hm', ?_⟩⟩
          rw [← Option.some.inj h]
          rfl
        · rw [hdec] at h
          exact ih _ p hs h m hm'
        · rw [hdec] at h
          dsimp only at h ⊢
          obtain ⟨⟨v, e⟩, hve, h⟩ := Option.bind_eq_some_iff.1 h
          obtain ⟨rest, hr, h⟩ := Option.bind_eq_some_iff.1 h
          refine Option.bind_eq_some_iff.2 ⟨(v, e), hve, Option.bind_eq_some_iff.2
            ⟨rest ++ q, ih _ rest hs hr m hm', ?_⟩⟩
          rw [← Option.some.inj h]
          rfl

/-- Lines that are assignments. -/
theorem parseLines_plain (b : Backend) {α : Type*} (line : α → Nat × Str) (asg : α → Var × Ex) :
    ∀ (l : List α), (∀ a ∈ l, "if ".toList.isPrefixOf (line a).2 = false ∧
      declaration (line a).2 = none ∧ (line a).2 ≠ "J=[None]*62".toList ∧
      (lexLine b (line a).2).bind (parseAssign b) = some (asg a)) →
    ∀ m, l.length < m → parseLines b m (l.map line) = some (l.map (fun a => .asg (asg a).1 (asg a).2)) := by
  intro l
  induction l with
  | nil =>
    intro _ m hm
    obtain ⟨m, rfl⟩ : ∃ m', m = m' + 1 := ⟨m - 1, by simp at hm; omega⟩
    rfl
  | cons a l ih =>
    intro h m hm
    obtain ⟨m, rfl⟩ : ∃ m', m = m' + 1 := ⟨m - 1, by rw [List.length_cons] at hm; omega⟩
    obtain ⟨h1, h2, h3, h4⟩ := h a (List.mem_cons_self ..)
    rw [List.map_cons, parseLines, if_neg (by rw [h1]; decide)]
    have hdec : (if b = .fortran then declaration (line a).2
        else if (line a).2 = "J=[None]*62".toList then some none else none) = none := by
      by_cases hb : b = .fortran
      · rw [if_pos hb]; exact h2
      · rw [if_neg hb, if_neg h3]
    rw [hdec]
    refine Option.bind_eq_some_iff.2 ⟨asg a, h4, Option.bind_eq_some_iff.2
      ⟨_, ih (fun x hx => h x (List.mem_cons_of_mem _ hx)) m (by rw [List.length_cons] at hm; omega), rfl⟩⟩

theorem splitOn_append (c : Char) (x y : Str) :
    splitOn c (x ++ c :: y) = splitOn c x ++ splitOn c y := by
  induction x with
  | nil => simp [splitOn]
  | cons a x ih =>
    rw [List.cons_append, splitOn, splitOn]
    by_cases ha : a = c
    · rw [if_pos ha, if_pos ha, ih]; rfl
    · rw [if_neg ha, if_neg ha, ih]
      cases hx : splitOn c x with
      | nil =>
        exfalso
        cases x with
        | nil => simp [splitOn] at hx
        | cons b x =>
          rw [splitOn] at hx
          split at hx
          · cases hx
          · split at hx <;> cases hx
      | cons w ws => rfl

theorem joinLines_cons (x : Str) {zs : List Str} {m : Str} {ms : List Str} (h : joinLines zs = m :: ms) :
    joinLines (x :: zs) = if x.getLast? = some '&' then (x.dropLast ++ m) :: ms else x :: m :: ms := by
  rw [joinLines, h]

theorem joinLines_append (ys : List Str) (hys : ∀ y ∈ ys, y.getLast? ≠ some '&') : ∀ xs : List Str,
    xs.getLast?.bind List.getLast? ≠ some '&' → joinLines (xs ++ ys) = joinLines xs ++ ys := by
  have hplain : joinLines ys = ys := by
    induction ys with
    | nil => rfl
    | cons y ys ih =>
      rw [joinLines, ih (fun z hz => hys z (List.mem_cons_of_mem _ hz))]
      cases ys with
      | nil => rfl
      | cons z ys => exact if_neg (hys y (List.mem_cons_self ..))
  intro xs
  induction xs with
  | nil => intro _; rw [List.nil_append, hplain]; rfl
  | cons x xs ih =>
    intro h
    rw [List.cons_append]
    cases xs with
    | nil =>
      rw [List.nil_append, joinLines, hplain]
      cases ys with
      | nil => rfl
      | cons y ys => exact if_neg (by simpa using h)
    | cons x' xs =>
      have ih' := ih (by simpa [List.getLast?_cons_cons] using h)
      cases hj : joinLines (x' :: xs) with
      | nil =>
        exfalso
        rw [joinLines] at hj
        split at hj
        · cases hj
        · split at hj <;> cases hj
      | cons m ms =>
        rw [hj] at ih'
        rw [joinLines_cons x (ih'.trans (List.cons_append ..)), joinLines_cons x hj]
        split <;> rfl

/-! ### The lines of the rate table -/

theorem lex_space (b : Backend) (n : Nat) {c : Char} (hc : isSpace c = true) (s : Str) :
    lex b (n + 1) (c :: s) = lex b n s := by
  rw [lex, if_pos hc]

theorem lex_symbol (b : Backend) (n : Nat) {c : Char} (s : Str)
    (hc : c ∈ ['+', '-', '/', '(', ')', '[', ']', '=', ':', ',']) :
    lex b (n + 1) (c :: s) = (lex b n s).map (Tk.sym c :: ·) := by
  have h : isSpace c = false ∧ isDigit c = false ∧ isLetter c = false ∧ c ≠ '*' ∧ c ≠ '<' ∧
      c ∈ ['+', '-', '*', '/', '(', ')', '[', ']', '=', ':', ','] := by
    revert c; decide
  obtain ⟨h1, h2, h3, h4, h5, h6⟩ := h
  rw [lex, if_neg (by simp [h1]), if_neg (by simp [h2]), if_neg (by simp [h3]),
    if_neg (fun h => h4 h.1), if_neg (fun h => h5 h.1), if_pos h6]

theorem lexNum_digits (b : Backend) (k : Nat) {c : Char} (s : Str) (hc : isDigit c = false) (hd : c ≠ '.')
    (he : isExpLetter b c = false) : lexNum b (Nat.toDigits 10 k ++ c :: s) = ((k : ℚ), c :: s) := by
  obtain ⟨h1, h2⟩ := takeWhile_isDigit_toDigits k c hc s
  have hx : lexExp b (c :: s) = (0, c :: s) := by simp [lexExp, he]
  unfold lexNum
  simp only [h1, h2]
  split
  · rename_i t h; cases h; exact absurd rfl hd
  · simp only [hx, List.append_nil, digitsVal_toDigits, List.length_nil]
    simp [tenPow]

theorem subscript_nat (k : Nat) : subscript (k : ℚ) = some k := by
  unfold subscript
  rw [if_pos ⟨Rat.den_natCast k, by rw [Rat.num_natCast]; exact Int.natCast_nonneg k⟩, Rat.num_natCast]
  rfl

theorem lex_rateLine (b : Backend) (k : Nat) {t : Str} {ts : List Tk} (h : lexLine b t = some ts) :
    lexLine b ("rate_values".toList ++ openOf b :: (Nat.toDigits 10 k ++ closeOf b :: (" =".toList ++ t))) =
      some (.id "rate_values".toList :: .sym (openOf b) :: .num k :: .sym (closeOf b) :: .sym '=' :: ts) := by
  have ho : openOf b ∈ ['+', '-', '/', '(', ')', '[', ']', '=', ':', ','] ∧ isIdent (openOf b) = false := by
    cases b <;> decide
  have hcl : closeOf b ∈ ['+', '-', '/', '(', ')', '[', ']', '=', ':', ','] ∧ isDigit (closeOf b) = false ∧
      closeOf b ≠ '.' ∧ isExpLetter b (closeOf b) = false := by
    cases b <;> decide
  have e2 : " =".toList = [' ', '='] := by decide
  have hfive : ∀ n, t.length + 1 ≤ n → lex b (n + 6) ("rate_values".toList ++ openOf b ::
      (Nat.toDigits 10 k ++ closeOf b :: (" =".toList ++ t))) =
      some (.id "rate_values".toList :: .sym (openOf b) :: .num k :: .sym (closeOf b) :: .sym '=' :: ts) := by
    intro n hn
    have ht := lex_mono b _ n _ _ hn h
    have h1 : ∀ u : Str, ("rate_values".toList ++ openOf b :: u).takeWhile isIdent = "rate_values".toList ∧
        ("rate_values".toList ++ openOf b :: u).dropWhile isIdent = openOf b :: u := by
      intro u
      have hall : ∀ c ∈ "rate_values".toList, isIdent c = true := by decide
      rw [List.takeWhile_append_of_pos hall, List.dropWhile_append_of_pos hall, List.takeWhile_cons,
        List.dropWhile_cons, if_neg (by simp [ho.2]), if_neg (by simp [ho.2]), List.append_nil]
      exact ⟨rfl, rfl⟩
    have hid : ∀ (u : Str) m, lex b (m + 1) ("rate_values".toList ++ openOf b :: u) =
        (lex b m (openOf b :: u)).map (Tk.id "rate_values".toList :: ·) := by
      intro u m
      obtain ⟨g1, g2⟩ := h1 u
      have hcons : "rate_values".toList ++ openOf b :: u = 'r' :: ("ate_values".toList ++ openOf b :: u) := rfl
      rw [hcons] at g1 g2 ⊢
      rw [lex, if_neg (by decide), if_neg (by decide), if_pos (by decide), g1, g2]
    have hnum : ∀ (u : Str) m, lex b (m + 1) (Nat.toDigits 10 k ++ closeOf b :: u) =
        (lex b m (closeOf b :: u)).map (Tk.num k :: ·) := by
      intro u m
      have hl := lexNum_digits b k u hcl.2.1 hcl.2.2.1 hcl.2.2.2
      have hdig := isDigit_toDigits k
      have hpos := Nat.length_toDigits_pos (b := 10) (n := k)
      rcases hds : Nat.toDigits 10 k with - | ⟨d, ds⟩
      · rw [hds] at hpos; simp at hpos
      · rw [hds] at hl hdig
        have hd := hdig d (List.mem_cons_self ..)
        have hsp : isSpace d = false := by
          unfold isDigit at hd
          unfold isSpace
          simp only [Bool.and_eq_true, decide_eq_true_eq] at hd
          have h48 : '0'.toNat = 48 := rfl
          have h57 : '9'.toNat = 57 := rfl
          rw [h48, h57] at hd
          simp only [Bool.or_eq_false_iff, Bool.and_eq_false_iff, decide_eq_false_iff_not, beq_eq_false_iff_ne]
          omega
        rw [List.cons_append] at hl ⊢
        rw [lex, if_neg (by simp [hsp]), if_pos hd, hl]
    rw [hid, lex_symbol b _ _ ho.1, hnum, lex_symbol b _ _ hcl.1, e2, List.cons_append, List.cons_append,
      lex_space b _ (by decide), lex_symbol b _ _ (by decide), List.nil_append, ht]
    rfl
  have hlen : ∃ n, t.length + 1 ≤ n ∧ ("rate_values".toList ++ openOf b :: (Nat.toDigits 10 k ++ closeOf b ::
      (" =".toList ++ t))).length + 1 = n + 6 := by
    refine ⟨"rate_values".toList.length + (Nat.toDigits 10 k).length + t.length - 1, ?_, ?_⟩
    · have : "rate_values".toList.length = 11 := by decide
      omega
    · have : "rate_values".toList.length = 11 := by decide
      simp only [List.length_append, List.length_cons, e2, List.length_nil]
      omega
  obtain ⟨n, hn, he⟩ := hlen
  unfold lexLine
  rw [he]
  exact hfive n hn

/-! ### The lines of the file -/

/-- Lines with their indentation, before Fortran lines are joined. -/
def preLines (b : Backend) (s : Str) : List (Nat × Str) :=
  ((splitOn '\n' s).map (fun l => indented (uncomment b l))).filter (fun l => l.2 ≠ [])

theorem codeLines_eq (b : Backend) (ws : List Str) : codeLines b ws =
    if b = .fortran then (joinLines ((preLines b ws.flatten).map (fun l => lower l.2))).map (fun l => (0, l))
    else preLines b ws.flatten := rfl

theorem preLines_append (b : Backend) {x : Str} (hx : x.getLast? = some '\n') (y : Str) :
    preLines b (x ++ y) = preLines b x ++ preLines b y := by
  obtain ⟨x, rfl⟩ := List.getLast?_eq_some_iff.1 hx
  have h0 : (([[]] : List Str).map (fun l => indented (uncomment b l))).filter
      (fun l => decide (l.2 ≠ [])) = [] := by cases b <;> decide
  have e : splitOn '\n' (x ++ ['\n']) = splitOn '\n' x ++ [[]] := splitOn_append '\n' x []
  unfold preLines
  rw [List.append_assoc, List.singleton_append, splitOn_append, e]
  simp only [List.map_append, List.filter_append]
  rw [h0, List.append_nil]

theorem preLines_line (b : Backend) {l : Str} (hl : '\n' ∉ l) (rest : Str) :
    preLines b (l ++ '\n' :: rest) = [indented (uncomment b l)].filter (fun l => decide (l.2 ≠ [])) ++
      preLines b rest := by
  unfold preLines
  rw [splitOn_line hl, List.map_cons, ← List.singleton_append, List.filter_append]

/-- The comment sign of a language. -/
def commentSign (b : Backend) : Char := if b = .fortran then '!' else '#'

theorem uncomment_eq (b : Backend) (s : Str) : uncomment b s = s.takeWhile (fun c => !(c == commentSign b)) :=
  rfl

theorem uncomment_plain (b : Backend) {s : Str} (h : commentSign b ∉ s) : uncomment b s = s := by
  rw [uncomment_eq]
  have : ∀ c ∈ s, (!(c == commentSign b)) = true := by
    intro c hc
    rw [Bool.not_eq_true', beq_eq_false_iff_ne]
    rintro rfl
    exact h hc
  have e := List.takeWhile_append_of_pos this (l₂ := [])
  simpa using e

/-- The line of an entry as it stands in the file, without indentation. -/
def bareLine (b : Backend) (k : Nat) (t : Str) : Str :=
  "rate_values".toList ++ openOf b :: (Nat.toDigits 10 k ++ closeOf b :: (" =".toList ++ t))

theorem bareLine_mem {b : Backend} {k : Nat} {t : Str} {c : Char} (h : c ∈ bareLine b k t) :
    tokenChar c = true ∨ c ∈ t := by
  unfold bareLine at h
  rcases List.mem_append.1 h with h | h
  · exact Or.inl ((by decide : ∀ c ∈ "rate_values".toList, tokenChar c = true) c h)
  · rcases List.mem_cons.1 h with rfl | h
    · left; cases b <;> decide
    · rcases List.mem_append.1 h with h | h
      · left
        have := isDigit_toDigits k c h
        simp [tokenChar, isIdent, this]
      · rcases List.mem_cons.1 h with rfl | h
        · left; cases b <;> decide
        · rcases List.mem_append.1 h with h | h
          · exact Or.inl ((by decide : ∀ c ∈ " =".toList, tokenChar c = true) c h)
          · exact Or.inr h

theorem dropWhile_cons_false {α : Type*} {f : α → Bool} {a : α} (h : f a = false) (l : List α) :
    (a :: l).dropWhile f = a :: l := by
  rw [List.dropWhile_cons, if_neg (by simp [h])]

theorem stripBy_bare (pad : Str) (hpad : ∀ c ∈ pad, isSpace c = true) {a z : Char} {u : Str}
    (ha : isSpace a = false) (hz : isSpace z = false) (hu : ((a :: u).getLast?) = some z) :
    indented (pad ++ (a :: u) ++ [' ']) = (pad.length, a :: u) := by
  unfold indented stripBy
  obtain ⟨w, hw⟩ := List.getLast?_eq_some_iff.1 hu
  have h1 : (pad ++ (a :: u) ++ [' ']).takeWhile isSpace = pad := by
    rw [List.append_assoc, List.takeWhile_append_of_pos hpad, List.cons_append, List.takeWhile_cons,
      if_neg (by simp [ha]), List.append_nil]
  have h2 : (pad ++ (a :: u) ++ [' ']).dropWhile isSpace = (a :: u) ++ [' '] := by
    rw [List.append_assoc, List.dropWhile_append_of_pos hpad, List.cons_append, dropWhile_cons_false ha]
  rw [h1, h2, hw, List.reverse_append, List.reverse_append]
  simp only [List.reverse_singleton, List.singleton_append]
  rw [List.dropWhile_cons, if_pos (by decide), dropWhile_cons_false hz, List.reverse_cons,
    List.reverse_reverse]

/-- A text that can be written after `=` without ending the statement. -/
def PlainText (t : Str) : Prop := Spaceless t ∧ ∀ c ∈ t, tokenChar c = true

theorem bareLine_last (b : Backend) (k : Nat) {t : Str} (ht : PlainText t) :
    ∃ z, isSpace z = false ∧ z ≠ '&' ∧ (bareLine b k t).getLast? = some z := by
  rcases List.eq_nil_or_concat t with rfl | ⟨w, z, rfl⟩
  · refine ⟨'=', by decide, by decide, ?_⟩
    unfold bareLine
    have : " =".toList = [' ', '='] := by decide
    rw [this, List.append_nil]
    simp [List.getLast?_append, List.getLast?_cons]
  · refine ⟨z, ht.1 z (by simp), ?_, ?_⟩
    · rintro rfl
      exact absurd (ht.2 '&' (by simp)) (by decide)
    · unfold bareLine
      simp [List.getLast?_append, List.getLast?_cons]

theorem preLines_rate (b : Backend) (k : Nat) {t : Str} (ht : PlainText t) (rest : Str) :
    preLines b ("    ".toList ++ bareLine b k t ++ [' '] ++ '\n' :: rest) =
      (4, bareLine b k t) :: preLines b rest := by
  have hchar : ∀ c, tokenChar c = false → isSpace c = false → c ∉ "    ".toList ++ bareLine b k t ++ [' '] := by
    intro c hc hs hm
    rcases List.mem_append.1 hm with hm | hm
    · rcases List.mem_append.1 hm with hm | hm
      · have : c = ' ' := (by decide : ∀ c ∈ "    ".toList, c = ' ') c hm
        rw [this] at hs; exact absurd hs (by decide)
      · rcases bareLine_mem hm with h | h
        · rw [hc] at h; cases h
        · rw [ht.2 c h] at hc; cases hc
    · have : c = ' ' := List.mem_singleton.1 hm
      rw [this] at hs; exact absurd hs (by decide)
  have hnl : '\n' ∉ "    ".toList ++ bareLine b k t ++ [' '] := by
    intro hm
    rcases List.mem_append.1 hm with hm | hm
    · rcases List.mem_append.1 hm with hm | hm
      · revert hm; decide
      · unfold bareLine at hm
        rcases List.mem_append.1 hm with hm | hm
        · revert hm; decide
        · rcases List.mem_cons.1 hm with hm | hm
          · revert hm; cases b <;> decide
          · rcases List.mem_append.1 hm with hm | hm
            · exact toDigits_newline k hm
            · rcases List.mem_cons.1 hm with hm | hm
              · revert hm; cases b <;> decide
              · rcases List.mem_append.1 hm with hm | hm
                · revert hm; decide
                · exact spaceless_newline ht.1 hm
    · revert hm; decide
  rw [preLines_line b hnl, uncomment_plain b (hchar _ (by cases b <;> decide) (by cases b <;> decide))]
  obtain ⟨z, hz, -, hl⟩ := bareLine_last b k ht
  have hc : bareLine b k t = 'r' :: ("ate_values".toList ++ openOf b :: (Nat.toDigits 10 k ++ closeOf b ::
      (" =".toList ++ t))) := rfl
  rw [hc] at hl ⊢
  rw [stripBy_bare "    ".toList (by decide) (by decide) hz hl]
  rfl

/-- Lines that are comments only. -/
theorem preLines_omp (bs : List Nat) (k : Nat) (rest : Str) :
    preLines .fortran (ompTextBefore bs k ++ rest) = preLines .fortran rest := by
  have hline : ∀ (l : Str), '\n' ∉ l → (indented (uncomment .fortran l)).2 = [] → ∀ rest,
      preLines .fortran (l ++ '\n' :: rest) = preLines .fortran rest := by
    intro l h1 h2 rest
    rw [preLines_line _ h1]
    simp [h2]
  have h1 : ∀ rest : Str, preLines .fortran
      ("!$OMP PARALLEL &\n!$OMP& SHARED(rate_values, J)  \n!$OMP SINGLE \n".toList ++ rest) =
      preLines .fortran rest := by
    intro rest
    have e : "!$OMP PARALLEL &\n!$OMP& SHARED(rate_values, J)  \n!$OMP SINGLE \n".toList ++ rest =
      "!$OMP PARALLEL &".toList ++ '\n' :: ("!$OMP& SHARED(rate_values, J)  ".toList ++ '\n' ::
        ("!$OMP SINGLE ".toList ++ '\n' :: rest)) := by
      have : "!$OMP PARALLEL &\n!$OMP& SHARED(rate_values, J)  \n!$OMP SINGLE \n".toList =
        "!$OMP PARALLEL &".toList ++ '\n' :: ("!$OMP& SHARED(rate_values, J)  ".toList ++ '\n' ::
        ("!$OMP SINGLE ".toList ++ ['\n'])) := by decide +kernel
      rw [this]
      simp only [List.append_assoc, List.cons_append, List.nil_append]
    rw [e, hline _ (by decide) (by decide), hline _ (by decide) (by decide),
      hline _ (by decide) (by decide)]
  have h2 : ∀ rest : Str, preLines .fortran ("!$OMP END SINGLE NOWAIT \n!$OMP SINGLE \n".toList ++ rest) =
      preLines .fortran rest := by
    intro rest
    have e : "!$OMP END SINGLE NOWAIT \n!$OMP SINGLE \n".toList ++ rest =
      "!$OMP END SINGLE NOWAIT ".toList ++ '\n' :: ("!$OMP SINGLE ".toList ++ '\n' :: rest) := by
      have : "!$OMP END SINGLE NOWAIT \n!$OMP SINGLE \n".toList =
        "!$OMP END SINGLE NOWAIT ".toList ++ '\n' :: ("!$OMP SINGLE ".toList ++ ['\n']) := by
        decide +kernel
      rw [this]
      simp only [List.append_assoc, List.cons_append, List.nil_append]
    rw [e, hline _ (by decide) (by decide), hline _ (by decide) (by decide)]
  unfold ompTextBefore
  split <;> split <;> simp only [List.append_assoc, List.nil_append]
  · rw [h1, h2]
  · rw [h1]
  · rw [h2]

/-- The subscript of an entry: Fortran counts from 1. -/
def Backend.place (b : Backend) (k : Nat) : Nat := if b = .fortran then k + 1 else k

theorem rateLinePy_eq {b : Backend} (hb : b ≠ .fortran) (p : Nat × Str) (rest : Str) :
    rateLinePy p ++ rest = "    ".toList ++ bareLine b (b.place p.1) p.2 ++ [' '] ++ '\n' :: rest := by
  have e1 : "    rate_values[".toList = "    ".toList ++ ("rate_values".toList ++ ['[']) := by decide
  have e2 : "] =".toList = ']' :: " =".toList := by decide
  have e3 : " \n".toList = [' ', '\n'] := by decide
  unfold rateLinePy bareLine Backend.place openOf closeOf
  rw [if_neg hb, if_neg hb, if_neg hb, e1, e2, e3]
  simp only [List.append_assoc, List.cons_append, List.nil_append]

theorem rateLineF_eq (p : Nat × Str) (rest : Str) : rateLineF p ++ rest =
    "    ".toList ++ bareLine .fortran (Backend.fortran.place p.1) p.2 ++ [' '] ++ '\n' :: rest := by
  have e1 : "    rate_values(".toList = "    ".toList ++ ("rate_values".toList ++ ['(']) := by decide
  have e2 : ") =".toList = ')' :: " =".toList := by decide
  have e3 : " \n".toList = [' ', '\n'] := by decide
  unfold rateLineF bareLine Backend.place openOf closeOf
  rw [if_pos rfl, if_pos rfl, if_pos rfl, e1, e2, e3]
  simp only [List.append_assoc, List.cons_append, List.nil_append]

theorem preLines_nil (b : Backend) : preLines b [] = [] := by cases b <;> decide

/-- The lines of the file. -/
theorem preLines_file (b : Backend) (cores : Option Nat) (d : Dict Nat Str)
    (hd : ∀ p ∈ d, PlainText p.2) : preLines b (ratesFile b cores d).flatten =
      preLines b (writesOf b).flatten ++ d.map (fun p => (4, bareLine b (b.place p.1) p.2)) := by
  have hlast : (writesOf b).flatten.getLast? = some '\n' := by
    have h := facts_sealed
    simp only [Bool.and_eq_true] at h
    cases b with
    | python => have := h.1.1; unfold sealedCheck at this; simp only [Bool.and_eq_true, decide_eq_true_eq] at this; exact this.1.1.2
    | numba => have := h.1.2; unfold sealedCheck at this; simp only [Bool.and_eq_true, decide_eq_true_eq] at this; exact this.1.1.2
    | fortran => have := h.2; unfold sealedCheck at this; simp only [Bool.and_eq_true, decide_eq_true_eq] at this; exact this.1.1.2
  have hpy : ∀ (b : Backend), b ≠ .fortran → ∀ d : Dict Nat Str, (∀ p ∈ d, PlainText p.2) →
      preLines b (d.map rateLinePy).flatten = d.map (fun p => (4, bareLine b (b.place p.1) p.2)) := by
    intro b hb d
    induction d with
    | nil => intro _; exact preLines_nil b
    | cons p d ih =>
      intro h
      rw [List.map_cons, List.flatten_cons, rateLinePy_eq hb, preLines_rate b _ (h p (List.mem_cons_self ..)),
        ih (fun q hq => h q (List.mem_cons_of_mem _ hq)), List.map_cons]
  unfold ratesFile
  rw [List.flatten_append, preLines_append b hlast]
  congr 1
  cases b with
  | python => cases cores <;> exact hpy .python (by decide) d hd
  | numba => cases cores <;> exact hpy .numba (by decide) d hd
  | fortran =>
    cases cores with
    | none =>
      dsimp only
      induction d with
      | nil => exact preLines_nil _
      | cons p d ih =>
        rw [List.map_cons, List.flatten_cons, rateLineF_eq, preLines_rate _ _ (hd p (List.mem_cons_self ..)),
          ih (fun q hq => hd q (List.mem_cons_of_mem _ hq)), List.map_cons]
    | some c =>
      dsimp only
      generalize breakList d.length c = bs
      have : ∀ (d : Dict Nat Str) (n : Nat), (∀ p ∈ d, PlainText p.2) →
          preLines .fortran ((d.zipIdx n).map (fun x => ompTextBefore bs x.2 ++ rateLineF x.1)).flatten =
          d.map (fun p => (4, bareLine .fortran (Backend.fortran.place p.1) p.2)) := by
        intro d
        induction d with
        | nil => intro n _; exact preLines_nil _
        | cons p d ih =>
          intro n hd
          rw [List.zipIdx_cons, List.map_cons, List.flatten_cons]
          dsimp only
          rw [List.append_assoc, preLines_omp, rateLineF_eq,
            preLines_rate _ _ (hd p (List.mem_cons_self ..)),
            ih (n + 1) (fun q hq => hd q (List.mem_cons_of_mem _ hq)), List.map_cons]
      exact this d 0 hd

/-! ### The file as a program -/

theorem lower_append (s t : Str) : lower (s ++ t) = lower s ++ lower t := List.map_append

theorem lower_digits (k : Nat) : lower (Nat.toDigits 10 k) = Nat.toDigits 10 k := by
  have h : ∀ s : Str, (∀ c ∈ s, isDigit c = true) → lower s = s := by
    intro s hs
    unfold lower
    conv_rhs => rw [← List.map_id s]
    refine List.map_congr_left fun c hc => ?_
    have := hs c hc
    unfold isDigit at this
    simp only [Bool.and_eq_true, decide_eq_true_eq] at this
    have h57 : '9'.toNat = 57 := rfl
    have h65 : 'A'.toNat = 65 := rfl
    rw [if_neg (by rw [h65]; omega)]
    rfl
  exact h _ (isDigit_toDigits k)

theorem lower_bareLine (k : Nat) (t : Str) : lower (bareLine .fortran k t) = bareLine .fortran k (lower t) := by
  unfold bareLine
  have h1 : lower "rate_values".toList = "rate_values".toList := by decide
  have h2 : lower " =".toList = " =".toList := by decide
  have h3 : ∀ (c : Char) (s : Str), c ∈ ['(', ')'] → lower (c :: s) = c :: lower s := by
    intro c s hc
    rw [← List.singleton_append, lower_append, (by decide : ∀ c ∈ ['(', ')'], lower [c] = [c]) c hc]
    rfl
  have ho : openOf .fortran ∈ ['(', ')'] := by decide
  have hcl : closeOf .fortran ∈ ['(', ')'] := by decide
  rw [lower_append, h1, h3 _ _ ho, lower_append, lower_digits, h3 _ _ hcl, lower_append, h2]

/-- What the language sees of a text: Fortran has no case. -/
def Backend.seen (b : Backend) (t : Str) : Str := if b = .fortran then lower t else t

theorem seen_char {b : Backend} {t : Str} (h : ∀ c ∈ b.seen t, tokenChar c = true) :
    ∀ c ∈ t, tokenChar c = true := by
  unfold Backend.seen at h
  split at h
  · intro c hc
    have h1 := h _ (List.mem_map_of_mem hc)
    split at h1
    · rename_i hlet
      have h65 : 'A'.toNat = 65 := rfl
      have h90 : 'Z'.toNat = 90 := rfl
      rw [h65, h90] at hlet
      have : c.isAlpha = true := by
        unfold Char.isAlpha Char.isUpper
        have e : c.val.toNat = c.toNat := rfl
        simp only [Bool.or_eq_true, decide_eq_true_eq, UInt32.le_iff_toNat_le]
        left
        exact hlet
      simp [tokenChar, isIdent, isLetter, this]
    · exact h1
  · exact h

theorem codeLines_file (b : Backend) (cores : Option Nat) (d : Dict Nat Str)
    (hd : ∀ p ∈ d, PlainText p.2) : codeLines b (ratesFile b cores d) =
      codeLines b (writesOf b) ++ d.map (fun p => (if b = .fortran then 0 else 4,
        bareLine b (b.place p.1) (b.seen p.2))) := by
  rw [codeLines_eq, codeLines_eq, preLines_file b cores d hd]
  by_cases hb : b = .fortran
  · subst hb
    rw [if_pos rfl, if_pos rfl, List.map_append, joinLines_append, List.map_append]
    · congr 1
      rw [List.map_map, List.map_map]
      refine List.map_congr_left fun p _ => ?_
      simp only [Function.comp, if_true, lower_bareLine, Backend.seen]
    · intro y hy
      obtain ⟨q, hq, rfl⟩ := List.mem_map.1 hy
      obtain ⟨p, hp, rfl⟩ := List.mem_map.1 hq
      dsimp only
      rw [lower_bareLine]
      obtain ⟨z, -, hz, hl⟩ := bareLine_last .fortran (Backend.fortran.place p.1) (hd p hp)
      have h2 : (lower (bareLine .fortran (Backend.fortran.place p.1) p.2)).getLast? =
          some (if 'A'.toNat ≤ z.toNat ∧ z.toNat ≤ 'Z'.toNat then Char.ofNat (z.toNat + 32) else z) := by
        unfold lower
        rw [List.getLast?_map, hl]
        rfl
      rw [lower_bareLine] at h2
      rw [h2]
      intro h3
      have h3 := Option.some.inj h3
      split at h3
      · rename_i hlet
        have h65 : 'A'.toNat = 65 := rfl
        have h90 : 'Z'.toNat = 90 := rfl
        rw [h65, h90] at hlet
        exact (by decide : ∀ n < 91, 65 ≤ n → Char.ofNat (n + 32) ≠ '&') z.toNat (by omega) hlet.1 h3
      · exact hz h3
    · have h := facts_sealed
      simp only [Bool.and_eq_true] at h
      have h := h.2
      unfold sealedCheck at h
      simp only [Bool.and_eq_true, decide_eq_true_eq] at h
      exact h.1.2
  · rw [if_neg hb, if_neg hb]
    congr 1
    refine List.map_congr_left fun p _ => ?_
    rw [if_neg hb, Backend.seen, if_neg hb]

theorem parse_rateLine (b : Backend) (k : Nat) {t : Str} {e : Ex}
    (h : (lexLine b t).bind (parseExpr b) = some e) :
    (lexLine b (bareLine b k t)).bind (parseAssign b) = some (⟨"rate_values".toList, some k⟩, e) := by
  obtain ⟨ts, h1, h2⟩ := Option.bind_eq_some_iff.1 h
  unfold bareLine
  rw [lex_rateLine b k h1, Option.bind_some, parseAssign, if_pos ⟨rfl, rfl⟩, subscript_nat, h2]
  · rfl
  · intro h
    revert h
    cases b <;> decide

theorem readExpr_eq (b : Backend) (t : Str) : readExpr b t = (lexLine b (b.seen t)).bind (parseExpr b) := rfl

/-- The whole rate file is the fixed program followed by one assignment for each entry of the table. -/
theorem file_program (b : Backend) (cores : Option Nat) (d : Dict Nat Str)
    (hd : ∀ p ∈ d, Spaceless p.2) (ex : Nat × Str → Ex) (hex : ∀ p ∈ d, readExpr b p.2 = some (ex p)) :
    program b (ratesFile b cores d) =
      some (rateProgram b ++ d.map (fun p => .asg (b.rateVar p.1) (ex p))) := by
  have hplain : ∀ p ∈ d, PlainText p.2 := by
    intro p hp
    refine ⟨hd p hp, seen_char (b := b) ?_⟩
    have h1 := hex p hp
    rw [readExpr_eq] at h1
    obtain ⟨ts, h2, -⟩ := Option.bind_eq_some_iff.1 h1
    exact lex_chars b _ _ ts h2
  have hfix : parseLines b ((codeLines b (writesOf b)).length + 1) (codeLines b (writesOf b)) =
      some (rateProgram b) := rate_text_reads b
  have hseal : sealedLines b ((codeLines b (writesOf b)).length + 1) (codeLines b (writesOf b)) = true := by
    have h := facts_sealed
    simp only [Bool.and_eq_true] at h
    cases b with
    | python => have := h.1.1; unfold sealedCheck at this; simp only [Bool.and_eq_true] at this; exact this.1.1.1
    | numba => have := h.1.2; unfold sealedCheck at this; simp only [Bool.and_eq_true] at this; exact this.1.1.1
    | fortran => have := h.2; unfold sealedCheck at this; simp only [Bool.and_eq_true] at this; exact this.1.1.1
  unfold program
  rw [codeLines_file b cores d hplain]
  refine parseLines_append b _ _ ?_ _ _ _ hseal hfix _ (by rw [List.length_append]; omega)
  intro m hm
  have hvar : ∀ k, b.rateVar k = ⟨"rate_values".toList, some (b.place k)⟩ := by
    intro k
    cases b <;> rfl
  have := parseLines_plain b (fun p : Nat × Str => (if b = .fortran then 0 else 4,
    bareLine b (b.place p.1) (b.seen p.2))) (fun p => (b.rateVar p.1, ex p)) d ?_ m (by simpa using hm)
  · exact this
  · intro p hp
    dsimp only
    have hc : ∃ u, bareLine b (b.place p.1) (b.seen p.2) = 'r' :: 'a' :: u := ⟨_, rfl⟩
    obtain ⟨u, hu⟩ := hc
    refine ⟨by rw [hu]; rfl, by rw [hu]; rfl, (by rw [hu]; intro h; cases h), ?_⟩
    rw [hvar]
    exact parse_rateLine b _ (by rw [← readExpr_eq]; exact hex p hp)

end Rl
end PyBox
