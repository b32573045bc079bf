import Verif.Gen.Text

/-!
# Names in Fortran files

What a Fortran compiler does with names under `implicit none`: a file is cut into statements and each statement
into names and signs; declarations come first and every name that is used must be declared, once.
-/

namespace PyBox
namespace Spec

/-- What matters in a statement: names (without case) and signs. Numbers are dropped. -/
inductive Lexeme where
  | name (w : Str)
  | sym (c : Char)
  | newline
  deriving DecidableEq

/-- What the last characters were. -/
inductive Mode where
  | blank
  | name (w : Str)
  | number
  | comment
  deriving DecidableEq

/-- Letters, digits, the underscore and the point of numbers. -/
def wordChar (c : Char) : Bool := c.isAlpha || c.isDigit || c == '_' || c == '.'

/-- Lower case. -/
def lowChar (c : Char) : Char := if 65 ≤ c.toNat ∧ c.toNat ≤ 90 then Char.ofNat (c.toNat + 32) else c

/-- One more character of a word. -/
def Mode.add (c : Char) : Mode → Mode
  | .blank => if c.isAlpha then .name [lowChar c] else .number
  | .name w => .name (w ++ [lowChar c])
  | .number => .number
  | .comment => .comment

/-- The name that ends here. -/
def Mode.flush : Mode → List Lexeme
  | .name w => [.name w]
  | _ => []

/-- Names, signs and ends of lines of a text; from `!` to the end of the line is a comment. -/
def lexemes : Mode → Str → List Lexeme
  | m, [] => m.flush
  | m, c :: s =>
    if c = '\n' then m.flush ++ .newline :: lexemes .blank s
    else if m = .comment then lexemes .comment s
    else if c = '!' then m.flush ++ lexemes .comment s
    else if wordChar c then lexemes (m.add c) s
    else if isSpace c then m.flush ++ lexemes .blank s
    else m.flush ++ .sym c :: lexemes .blank s

/-- Statements end with their line, unless the line ends with `&`. -/
def cut : List Lexeme → List (List Lexeme)
  | [] => [[]]
  | .sym '&' :: .newline :: l => cut l
  | .newline :: l => [] :: cut l
  | x :: l =>
    match cut l with
    | [] => [[x]]
    | s :: r => (x :: s) :: r

/-- Statements, without empty lines. -/
def cutAll (l : List Lexeme) : List (List Lexeme) := (cut l).filter (fun s => !s.isEmpty)

/-- The statements of a file. -/
def fortranStatements (text : Str) : List (List Lexeme) := cutAll (lexemes .blank text)

/-- Names of a statement. -/
def namesOf (s : List Lexeme) : List Str :=
  s.filterMap (fun x => match x with
    | .name w => some w
    | _ => none)

/-- Names of a piece of text. -/
def namesIn (text : Str) : List Str := namesOf (lexemes .blank text)

/-- The part before `::` and the part after it. -/
def atColons : List Lexeme → Option (List Lexeme × List Lexeme)
  | .sym ':' :: .sym ':' :: l => some ([], l)
  | x :: l => (atColons l).map (fun p => (x :: p.1, p.2))
  | [] => none

def isList (l : List Lexeme) : Bool :=
  l.all (fun x => match x with
    | .name _ => true
    | .sym c => c == ','
    | .newline => false)

/-- Words that may stand before `::`. -/
def attributes : List Str := [chars% "intent", chars% "in", chars% "out", chars% "dimension", chars% "parameter"]

/-- A declaration `type(kind) a, b`, `type(kind), attributes :: a, b` or `type(kind), parameter :: a = value`:
the names it declares and the names in its value. -/
def declaration (s : List Lexeme) : Option (List Str × List Str) :=
  match s with
  | .name t :: .sym '(' :: .sym ')' :: l =>
    if t = (chars% "real") ∨ t = (chars% "integer") then
      match atColons l with
      | some (a, b) =>
        let names := b.takeWhile (fun x => !(x == .sym '='))
        if (namesOf a).all (fun w => decide (w ∈ attributes)) && isList names then
          some (namesOf names, namesOf (b.dropWhile (fun x => !(x == .sym '='))))
        else none
      | none => if isList l then some (namesOf l, []) else none
    else none
  | _ => none

/-- Words that need no declaration: those of control statements, intrinsic functions, and the keyword of
`SUM(.., DIM=..)`. -/
def reserved : List Str := [chars% "if", chars% "then", chars% "else", chars% "end", chars% "do", chars% "enddo",
  chars% "where", chars% "exp", chars% "log", chars% "log10", chars% "sqrt", chars% "abs", chars% "sin",
  chars% "cos", chars% "tan", chars% "atan", chars% "floor", chars% "sum", chars% "dim"]

/-- `subroutine name(a,b,..)` -/
def heading (name : Str) (args : List Str) : List Lexeme :=
  .name (chars% "subroutine") :: .name name :: .sym '(' ::
    ((args.map Lexeme.name).intersperse (.sym ',') ++ [.sym ')'])

/-- The file is one subroutine with these arguments and `implicit none`, in which declarations come before other
statements, nothing is declared twice, the arguments are declared, and so is every name that is used. -/
def NamesDeclared (name : Str) (args : List Str) (text : Str) : Prop :=
  ∃ decls body : List (List Lexeme),
    fortranStatements text = heading name args :: [.name (chars% "implicit"), .name (chars% "none")] ::
      (decls ++ body ++ [[.name (chars% "end"), .name (chars% "subroutine")]]) ∧
    ∃ parts : List (List Str × List Str), decls.map declaration = parts.map some ∧
      (parts.flatMap Prod.fst).Nodup ∧ (∀ a ∈ args, a ∈ parts.flatMap Prod.fst) ∧
      ∀ w ∈ parts.flatMap Prod.snd ++ body.flatMap namesOf, w ∈ reserved ∨ w ∈ parts.flatMap Prod.fst

end Spec

open Spec

/-! ### Reading a text in pieces -/

theorem lexemes_line (m : Mode) (a b : Str) :
    lexemes m (a ++ '\n' :: b) = lexemes m a ++ .newline :: lexemes .blank b := by
  induction a generalizing m with
  | nil => simp [lexemes]
  | cons c a ih =>
    simp only [List.cons_append, lexemes]
    split
    · rw [ih]; simp
    split
    · exact ih _
    split
    · rw [ih]; simp
    split
    · exact ih _
    split
    · rw [ih]; simp
    · rw [ih]; simp

theorem cut_ne_nil : ∀ l : List Lexeme, cut l ≠ [] := by
  intro l
  fun_cases cut l <;> simp_all
  rename_i l
  exact cut_ne_nil l

theorem cut_cons {x : Lexeme} {l : List Lexeme} (h1 : x ≠ .newline) (h2 : ∀ r, x = .sym '&' → l ≠ .newline :: r) :
    ∃ s r, cut l = s :: r ∧ cut (x :: l) = (x :: s) :: r := by
  obtain ⟨s, r, h⟩ := List.exists_cons_of_ne_nil (cut_ne_nil l)
  refine ⟨s, r, h, ?_⟩
  rw [cut]
  · rw [h]
  · rintro l rfl rfl; exact h2 _ rfl rfl
  · exact h1

/-- A statement that ends here. -/
theorem cut_newline {x : List Lexeme} (hx : x.getLast? ≠ some (.sym '&')) (y : List Lexeme) :
    cut (x ++ .newline :: y) = cut x ++ cut y := by
  fun_induction cut x with
  | case1 => simp [cut]
  | case2 l ih =>
    simp only [List.cons_append, cut]
    refine ih ?_
    cases l with
    | nil => simp
    | cons a l => simpa [List.getLast?_cons_cons] using hx
  | case3 l ih =>
    simp only [List.cons_append, cut]
    rw [ih]
    cases l with
    | nil => simp
    | cons a l => simpa [List.getLast?_cons_cons] using hx
  | case4 x l h1 h2 hc ih => exact absurd hc (cut_ne_nil l)
  | case5 x l h1 h2 s r hc ih =>
    have hl : l.getLast? ≠ some (.sym '&') := by
      cases l with
      | nil => simp
      | cons a l => simpa [List.getLast?_cons_cons] using hx
    have ih := ih hl
    rw [hc] at ih
    obtain ⟨s', r', e1, e2⟩ := cut_cons (x := x) (l := l ++ .newline :: y) (fun h => h2 h) (by
      rintro t rfl ht
      cases l with
      | nil => exact hx rfl
      | cons a l =>
        obtain ⟨rfl, -⟩ := List.cons.inj ht
        exact h1 l rfl rfl)
    rw [List.cons_append, e2]
    rw [e1] at ih
    obtain ⟨rfl, rfl⟩ := List.cons.inj ih
    rfl

/-- Whole statements, whatever follows. -/
def Complete (t : Str) (B : List (List Lexeme)) : Prop :=
  ∀ y, fortranStatements (t ++ y) = B ++ fortranStatements y

theorem Complete.nil : Complete [] [] := fun _ => rfl

theorem Complete.append {t t' : Str} {B B' : List (List Lexeme)} (h : Complete t B) (h' : Complete t' B') :
    Complete (t ++ t') (B ++ B') := by
  intro y
  rw [List.append_assoc, h, h', List.append_assoc]

theorem Complete.flatMap {α : Type} {f : α → Str} {g : α → List (List Lexeme)} {l : List α}
    (h : ∀ a ∈ l, Complete (f a) (g a)) : Complete (l.flatMap f) (l.flatMap g) := by
  induction l with
  | nil => exact .nil
  | cons a l ih =>
    rw [List.flatMap_cons, List.flatMap_cons]
    exact (h a (by simp)).append (ih fun b hb => h b (List.mem_cons_of_mem _ hb))

theorem Complete.statements {t : Str} {B : List (List Lexeme)} (h : Complete t B) : fortranStatements t = B := by
  have := h []
  rw [List.append_nil] at this
  rw [this]
  have : fortranStatements [] = [] := by decide
  rw [this, List.append_nil]

/-- Text up to the end of a line that is not continued. -/
theorem Complete.of_line {a : Str} (h : (lexemes .blank a).getLast? ≠ some (.sym '&')) :
    Complete (a ++ ['\n']) (fortranStatements (a ++ ['\n'])) := by
  have key : ∀ y, fortranStatements (a ++ '\n' :: y) = cutAll (lexemes .blank a) ++ fortranStatements y := by
    intro y
    unfold fortranStatements cutAll
    rw [lexemes_line, cut_newline h, List.filter_append]
  intro y
  rw [List.append_assoc, List.singleton_append, key, key]
  have : fortranStatements [] = [] := by decide
  rw [this, List.append_nil]

/-- Complete, as it can be computed. -/
def completeCheck (t : Str) : Bool :=
  match t.getLast? with
  | some c => c == '\n' && !(decide ((lexemes .blank t.dropLast).getLast? = some (.sym '&')))
  | none => false

theorem Complete.of_check {t : Str} (h : completeCheck t = true) : Complete t (fortranStatements t) := by
  unfold completeCheck at h
  split at h
  · rename_i c hc
    simp only [Bool.and_eq_true, beq_iff_eq, Bool.not_eq_true', decide_eq_false_iff_not] at h
    obtain ⟨a, rfl⟩ := List.getLast?_eq_some_iff.1 hc
    obtain ⟨rfl, h2⟩ := h
    rw [List.dropLast_concat] at h2
    exact Complete.of_line h2
  · cases h

/-! ### Numbers -/

/-- State after a text. -/
def after : Mode → Str → Mode
  | m, [] => m
  | m, c :: s =>
    if c = '\n' then after .blank s
    else if m = .comment then after .comment s
    else if c = '!' then after .comment s
    else if wordChar c then after (m.add c) s
    else after .blank s

/-- What a text gives before its last word is complete. -/
def given : Mode → Str → List Lexeme
  | _, [] => []
  | m, c :: s =>
    if c = '\n' then m.flush ++ .newline :: given .blank s
    else if m = .comment then given .comment s
    else if c = '!' then m.flush ++ given .comment s
    else if wordChar c then given (m.add c) s
    else if isSpace c then m.flush ++ given .blank s
    else m.flush ++ .sym c :: given .blank s

theorem lexemes_append (m : Mode) (s t : Str) : lexemes m (s ++ t) = given m s ++ lexemes (after m s) t := by
  induction s generalizing m with
  | nil => rfl
  | cons c s ih =>
    simp only [List.cons_append, lexemes, given, after]
    split
    · rw [ih]; simp
    split
    · exact ih _
    split
    · rw [ih]; simp
    split
    · exact ih _
    split
    · rw [ih]; simp
    · rw [ih]; simp

theorem lexemes_eq (m : Mode) (s : Str) : lexemes m s = given m s ++ (after m s).flush := by
  have := lexemes_append m s []
  rwa [List.append_nil] at this

theorem given_append (m : Mode) (s t : Str) : given m (s ++ t) = given m s ++ given (after m s) t := by
  induction s generalizing m with
  | nil => rfl
  | cons c s ih =>
    simp only [List.cons_append, given, after]
    split
    · rw [ih]; simp
    split
    · exact ih _
    split
    · rw [ih]; simp
    split
    · exact ih _
    split
    · rw [ih]; simp
    · rw [ih]; simp

theorem after_append (m : Mode) (s t : Str) : after m (s ++ t) = after (after m s) t := by
  induction s generalizing m with
  | nil => rfl
  | cons c s ih =>
    simp only [List.cons_append, after]
    split
    · exact ih _
    split
    · exact ih _
    split
    · exact ih _
    split
    · exact ih _
    · exact ih _

/-- A state in which digits do not belong to a name. -/
def Spec.Mode.free : Mode → Bool
  | .name _ => false
  | _ => true

/-- A digit. -/
theorem digit_facts {c : Char} (h : isDigit c = true) :
    c ≠ '\n' ∧ c ≠ '!' ∧ wordChar c = true ∧ c.isAlpha = false := by
  have h' : 48 ≤ c.toNat ∧ c.toNat ≤ 57 := by
    unfold isDigit at h
    simp only [Bool.and_eq_true, decide_eq_true_eq] at h
    exact h
  have key : ∀ n < 58, 48 ≤ n → Char.ofNat n ≠ '\n' ∧ Char.ofNat n ≠ '!' ∧ wordChar (Char.ofNat n) = true ∧
      (Char.ofNat n).isAlpha = false := by decide
  have := key c.toNat (by omega) h'.1
  rwa [Char.ofNat_toNat] at this

theorem digits_read {m : Mode} (hm : m.free = true) {s : Str} (hs : s ≠ []) (h : ∀ c ∈ s, isDigit c = true) :
    given m s = [] ∧ after m s = if m = .comment then .comment else .number := by
  have step : ∀ (m : Mode), m.free = true → ∀ c, isDigit c = true → ∀ s,
      given m (c :: s) = given (if m = .comment then .comment else .number) s ∧
      after m (c :: s) = after (if m = .comment then .comment else .number) s := by
    intro m hm c hc s
    obtain ⟨h1, h2, h3, h4⟩ := digit_facts hc
    cases m with
    | name w => cases hm
    | blank => simp [given, after, h1, h2, h3, h4, Mode.add]
    | number => simp [given, after, h1, h2, h3, Mode.add]
    | comment => simp [given, after, h1]
  induction s generalizing m with
  | nil => exact absurd rfl hs
  | cons c s ih =>
    obtain ⟨e1, e2⟩ := step m hm c (h c (by simp)) s
    rw [e1, e2]
    by_cases hs : s = []
    · subst hs; exact ⟨rfl, rfl⟩
    · have := ih (m := if m = .comment then .comment else .number) (by split <;> rfl) hs
        (fun c hc => h c (List.mem_cons_of_mem _ hc))
      refine ⟨this.1, this.2.trans ?_⟩
      by_cases hc : m = .comment
      · simp [hc]
      · simp [hc]

theorem digits_ne_nil (n : ℕ) : digits n ≠ [] := by unfold digits; exact Nat.toDigits_ne_nil

end PyBox
