import Verif.Gen.Text
import Verif.Rate.Whole

/-!
# Reading the text of the generated gas routines

A right-hand side written by the generators is a sum of signed products.  Its text is split into the
expected tokens, these are read as an expression with the value of the token program, and the lines of a
file are its statements.
-/

namespace PyBox

/-! ### Specification: printed numbers -/

namespace Spec

/-- The number written by a string of decimal digits. -/
def natOf (s : Str) : Nat := s.foldl (fun n c => 10 * n + (c.toNat - 48)) 0

/-- `s` is a non-empty string of decimal digits. -/
def Digits (s : Str) : Prop := s ≠ [] ∧ ∀ c ∈ s, '0' ≤ c ∧ c ≤ '9'

/-- `s` is a decimal number without a sign, as Python prints floats: digits, possibly a point and more
digits, possibly an exponent with its sign.  `q` is its value. -/
inductive Numeral : Str → ℚ → Prop
  | whole {w : Str} (hw : Digits w) : Numeral w (natOf w)
  | point {w f : Str} (hw : Digits w) (hf : Digits f) :
      Numeral (w ++ '.' :: f) (natOf (w ++ f) / 10 ^ f.length)
  | big {s x : Str} {q : ℚ} (hs : Numeral s q) (he : 'e' ∉ s) (hx : Digits x) :
      Numeral (s ++ 'e' :: '+' :: x) (q * 10 ^ natOf x)
  | small {s x : Str} {q : ℚ} (hs : Numeral s q) (he : 'e' ∉ s) (hx : Digits x) :
      Numeral (s ++ 'e' :: '-' :: x) (q / 10 ^ natOf x)

end Spec

namespace Rl

/-! ### Powers of ten -/

theorem tenPow_eq (e : Int) : tenPow e = (10 : ℚ) ^ e := by
  cases e with
  | ofNat n => simp [tenPow]
  | negSucc n => simp [tenPow, zpow_negSucc]

theorem natOf_eq (s : Str) : Spec.natOf s = digitsVal s := rfl

theorem digits_isDigit {s : Str} (h : Spec.Digits s) : ∀ c ∈ s, isDigit c = true := by
  intro c hc
  obtain ⟨h1, h2⟩ := h.2 c hc
  unfold isDigit
  simp only [Bool.and_eq_true, decide_eq_true_eq]
  exact ⟨h1, h2⟩

/-- What may follow a number: nothing, or a character that is not part of it. -/
def Stops (s : Str) : Prop := ∀ c ∈ s.head?, isDigit c = false ∧ c ≠ '.' ∧ c ≠ 'e' ∧ c ≠ 'E' ∧ c ≠ 'd' ∧ c ≠ 'D'

theorem Stops.while {s : Str} (h : Stops s) {w : Str} (hw : ∀ c ∈ w, isDigit c = true) :
    (w ++ s).takeWhile isDigit = w ∧ (w ++ s).dropWhile isDigit = s := by
  rw [List.takeWhile_append_of_pos hw, List.dropWhile_append_of_pos hw]
  cases s with
  | nil => simp
  | cons c s =>
    have := (h c rfl).1
    rw [List.takeWhile_cons, if_neg (by simp [this]), List.dropWhile_cons, if_neg (by simp [this])]
    exact ⟨List.append_nil _, rfl⟩

theorem Stops.exp {b : Backend} {s : Str} (h : Stops s) : lexExp b s = (0, s) := by
  cases s with
  | nil => rfl
  | cons c s =>
    obtain ⟨-, -, h1, h2, h3, h4⟩ := h c rfl
    have : isExpLetter b c = false := by simp [isExpLetter, h1, h2, h3, h4]
    simp [lexExp, this]

/-- Text of an exponent and its value. -/
inductive Expo : Str → Int → Prop
  | none : Expo [] 0
  | big {x : Str} (hx : Spec.Digits x) : Expo ('e' :: '+' :: x) (Spec.natOf x)
  | small {x : Str} (hx : Spec.Digits x) : Expo ('e' :: '-' :: x) (-(Spec.natOf x : Int))

theorem Expo.lex {b : Backend} {x : Str} {e : Int} (hx : Expo x e) {s : Str} (h : Stops s) :
    lexExp b (x ++ s) = (e, s) := by
  cases hx with
  | none => exact h.exp
  | big hx =>
    obtain ⟨h1, h2⟩ := h.while (digits_isDigit hx)
    simp only [List.cons_append, lexExp]
    rw [if_pos (by cases b <;> decide), h1, h2, natOf_eq]
  | small hx =>
    obtain ⟨h1, h2⟩ := h.while (digits_isDigit hx)
    simp only [List.cons_append, lexExp]
    rw [if_pos (by cases b <;> decide), h1, h2, natOf_eq]

theorem Expo.stops {x : Str} {e : Int} (hx : Expo x e) {s : Str} (h : Stops s) {w : Str}
    (hw : ∀ c ∈ w, isDigit c = true) :
    (w ++ (x ++ s)).takeWhile isDigit = w ∧ (w ++ (x ++ s)).dropWhile isDigit = x ++ s ∧
      ∀ t, x ++ s ≠ '.' :: t := by
  cases hx with
  | none =>
    refine ⟨(h.while hw).1, (h.while hw).2, ?_⟩
    rintro t rfl
    exact (h '.' rfl).2.1 rfl
  | big hx =>
    rw [List.takeWhile_append_of_pos hw, List.dropWhile_append_of_pos hw]
    exact ⟨List.append_nil _, rfl, fun t ht => by cases ht⟩
  | small hx =>
    rw [List.takeWhile_append_of_pos hw, List.dropWhile_append_of_pos hw]
    exact ⟨List.append_nil _, rfl, fun t ht => by cases ht⟩

theorem lexNum_whole (b : Backend) {w x s : Str} {e : Int} (hw : Spec.Digits w) (hx : Expo x e)
    (h : Stops s) : lexNum b (w ++ (x ++ s)) = ((Spec.natOf w : ℚ) * 10 ^ e, s) := by
  obtain ⟨h1, h2, h3⟩ := hx.stops h (digits_isDigit hw)
  unfold lexNum
  simp only [h1, h2]
  simp only [hx.lex h, List.append_nil, List.length_nil, tenPow_eq, natOf_eq]
  simp

theorem lexNum_point (b : Backend) {w f x s : Str} {e : Int} (hw : Spec.Digits w) (hf : Spec.Digits f)
    (hx : Expo x e) (h : Stops s) : lexNum b (w ++ '.' :: (f ++ (x ++ s))) =
      ((Spec.natOf (w ++ f) : ℚ) / 10 ^ f.length * 10 ^ e, s) := by
  obtain ⟨h1, h2, h3⟩ := hx.stops h (digits_isDigit hf)
  have h4 : (w ++ '.' :: (f ++ (x ++ s))).takeWhile isDigit = w := by
    rw [List.takeWhile_append_of_pos (digits_isDigit hw)]; exact List.append_nil _
  have h5 : (w ++ '.' :: (f ++ (x ++ s))).dropWhile isDigit = '.' :: (f ++ (x ++ s)) := by
    rw [List.dropWhile_append_of_pos (digits_isDigit hw)]; rfl
  unfold lexNum
  simp only [h4, h5, h1, h2, hx.lex h, tenPow_eq, natOf_eq]
  congr 1
  rw [zpow_sub₀ (by norm_num), zpow_natCast]
  ring

/-- A numeral is digits, possibly a point, possibly an exponent. -/
theorem Numeral.cases {s : Str} {q : ℚ} (h : Spec.Numeral s q) :
    (∃ w x e, Spec.Digits w ∧ Expo x e ∧ s = w ++ x ∧ q = (Spec.natOf w : ℚ) * 10 ^ e) ∨
    (∃ w f x e, Spec.Digits w ∧ Spec.Digits f ∧ Expo x e ∧ s = w ++ '.' :: (f ++ x) ∧
      q = (Spec.natOf (w ++ f) : ℚ) / 10 ^ f.length * 10 ^ e) := by
  induction h with
  | whole hw => exact .inl ⟨_, [], 0, hw, .none, by simp, by simp⟩
  | point hw hf => exact .inr ⟨_, _, [], 0, hw, hf, .none, by simp, by simp⟩
  | big hs he hx ih =>
    rcases ih with ⟨w, x, e, hw, hxe, rfl, rfl⟩ | ⟨w, f, x, e, hw, hf, hxe, rfl, rfl⟩
    · cases hxe with
      | none => exact .inl ⟨_, _, _, hw, .big hx, by simp, by simp⟩
      | big h => exact absurd (by simp) he
      | small h => exact absurd (by simp) he
    · cases hxe with
      | none => exact .inr ⟨_, _, _, _, hw, hf, .big hx, by simp, by simp⟩
      | big h => exact absurd (by simp) he
      | small h => exact absurd (by simp) he
  | small hs he hx ih =>
    rcases ih with ⟨w, x, e, hw, hxe, rfl, rfl⟩ | ⟨w, f, x, e, hw, hf, hxe, rfl, rfl⟩
    · cases hxe with
      | none => exact .inl ⟨_, _, _, hw, .small hx, by simp, by simp [div_eq_mul_inv]⟩
      | big h => exact absurd (by simp) he
      | small h => exact absurd (by simp) he
    · cases hxe with
      | none => exact .inr ⟨_, _, _, _, hw, hf, .small hx, by simp, by simp [div_eq_mul_inv]⟩
      | big h => exact absurd (by simp) he
      | small h => exact absurd (by simp) he

theorem lexNum_numeral (b : Backend) {s : Str} {q : ℚ} (h : Spec.Numeral s q) {t : Str} (ht : Stops t) :
    lexNum b (s ++ t) = (q, t) := by
  rcases Numeral.cases h with ⟨w, x, e, hw, hx, rfl, rfl⟩ | ⟨w, f, x, e, hw, hf, hx, rfl, rfl⟩
  · rw [List.append_assoc, lexNum_whole b hw hx ht]
  · rw [List.append_assoc, List.cons_append, List.append_assoc, lexNum_point b hw hf hx ht]

theorem Numeral.head {s : Str} {q : ℚ} (h : Spec.Numeral s q) : ∃ c t, s = c :: t ∧ isDigit c = true := by
  induction h with
  | @whole w hw =>
    cases w with
    | nil => exact absurd rfl hw.1
    | cons c w => exact ⟨c, w, rfl, digits_isDigit hw c (by simp)⟩
  | @point w f hw hf =>
    cases w with
    | nil => exact absurd rfl hw.1
    | cons c w => exact ⟨c, _, rfl, digits_isDigit hw c (by simp)⟩
  | big hs he hx ih => obtain ⟨c, t, rfl, hc⟩ := ih; exact ⟨c, _, rfl, hc⟩
  | small hs he hx ih => obtain ⟨c, t, rfl, hc⟩ := ih; exact ⟨c, _, rfl, hc⟩

/-! ### Splitting into tokens -/

/-- The text is split into these tokens. -/
def LexTo (b : Backend) (s : Str) (ts : List Tk) : Prop := lexLine b s = some ts

theorem LexTo.nil (b : Backend) : LexTo b [] [] := rfl

theorem LexTo.of_lex {b : Backend} {s : Str} {ts : List Tk} {n : Nat} (hn : n ≤ s.length + 1)
    (h : lex b n s = some ts) : LexTo b s ts := lex_mono b _ _ _ _ hn h

theorem LexTo.sym {b : Backend} {c : Char} (hc : c ∈ ['+', '-', '/', '(', ')', '[', ']', '=', ':', ','])
    {s : Str} {ts : List Tk} (h : LexTo b s ts) : LexTo b (c :: s) (.sym c :: ts) := by
  have h : lex b (s.length + 1) s = some ts := h
  unfold LexTo lexLine
  rw [List.length_cons, lex_symbol b _ s hc, h]
  rfl

theorem LexTo.space {b : Backend} {s : Str} {ts : List Tk} (h : LexTo b s ts) : LexTo b (' ' :: s) ts := by
  have h : lex b (s.length + 1) s = some ts := h
  unfold LexTo lexLine
  rw [List.length_cons, lex_space b _ (by decide), h]

theorem LexTo.times {b : Backend} {s : Str} {ts : List Tk} (hs : s.head? ≠ some '*') (h : LexTo b s ts) :
    LexTo b ('*' :: s) (.sym '*' :: ts) := by
  have h : lex b (s.length + 1) s = some ts := h
  unfold LexTo lexLine
  rw [List.length_cons, lex, if_neg (by decide), if_neg (by decide), if_neg (by decide),
    if_neg (fun h => hs h.2), if_neg (fun h => absurd h.1 (by decide)), if_pos (by decide), h]
  rfl

theorem LexTo.pow {b : Backend} {s : Str} {ts : List Tk} (h : LexTo b s ts) :
    LexTo b ('*' :: '*' :: s) (.pow :: ts) := by
  have h : lex b (s.length + 1) s = some ts := h
  refine LexTo.of_lex (n := s.length + 2) (by simp) ?_
  rw [lex, if_neg (by decide), if_neg (by decide), if_neg (by decide), if_pos ⟨rfl, rfl⟩, List.tail_cons, h]
  rfl

theorem LexTo.numeral {b : Backend} {s : Str} {q : ℚ} (hq : Spec.Numeral s q) {t : Str} {ts : List Tk}
    (ht : Stops t) (h : LexTo b t ts) : LexTo b (s ++ t) (.num q :: ts) := by
  have h : lex b (t.length + 1) t = some ts := h
  have e := lexNum_numeral b hq ht
  obtain ⟨c, u, rfl, hc⟩ := Numeral.head hq
  have hsp : isSpace c = false := by
    unfold isDigit at hc
    simp only [Bool.and_eq_true, decide_eq_true_eq] at hc
    have h48 : '0'.toNat = 48 := rfl
    have h57 : '9'.toNat = 57 := rfl
    rw [h48, h57] at hc
    unfold isSpace
    simp only [Bool.or_eq_false_iff, Bool.and_eq_false_imp, decide_eq_true_eq, decide_eq_false_iff_not,
      beq_eq_false_iff_ne]
    omega
  rw [List.cons_append] at e ⊢
  refine LexTo.of_lex (n := t.length + 2) (by simp) ?_
  rw [lex, if_neg (by simp [hsp]), if_pos hc, e, h]
  rfl

theorem digits_numeral (k : Nat) : Spec.Numeral (digits k) k := by
  have h : Spec.Digits (digits k) := by
    constructor
    · unfold digits; exact Nat.toDigits_ne_nil
    · intro c hc
      have := isDigit_toDigits k c hc
      unfold isDigit at this
      simp only [Bool.and_eq_true, decide_eq_true_eq] at this
      exact this
  have e : Spec.natOf (digits k) = k := digitsVal_toDigits k
  conv_rhs => rw [← e]
  exact .whole h

theorem LexTo.ident {b : Backend} {w t : Str} {ts : List Tk} (hw : ∀ c ∈ w, isIdent c = true)
    (h0 : ∃ c u, w = c :: u ∧ isLetter c = true ∧ isSpace c = false ∧ isDigit c = false)
    (ht : ∀ c ∈ t.head?, isIdent c = false)
    (h : LexTo b t ts) : LexTo b (w ++ t) (.id w :: ts) := by
  have h : lex b (t.length + 1) t = some ts := h
  obtain ⟨c, u, rfl, hc, hs, hd⟩ := h0
  have h1 : (c :: u ++ t).takeWhile isIdent = c :: u := by
    rw [List.takeWhile_append_of_pos hw]
    cases t with
    | nil => simp
    | cons a t => rw [List.takeWhile_cons, if_neg (by simp [ht a rfl]), List.append_nil]
  have h2 : (c :: u ++ t).dropWhile isIdent = t := by
    rw [List.dropWhile_append_of_pos hw]
    cases t with
    | nil => rfl
    | cons a t => exact dropWhile_cons_false (ht a rfl) t
  refine LexTo.of_lex (n := t.length + 2) (by simp) ?_
  rw [List.cons_append] at h1 h2 ⊢
  rw [lex, if_neg (by simp [hs]), if_neg (by simp [hd]), if_pos hc, h1, h2, h]
  rfl

end Rl

/-! ### Tokens of a right-hand side -/

open Rl

/-- Replace the numbers. -/
def Fac.renum (w : ℚ → ℚ) : Fac → Fac
  | .y i => .y i
  | .ypow i s => .ypow i (w s)
  | .r e => .r e
  | .num q => .num (w q)

def Tok.renum (w : ℚ → ℚ) : Tok → Tok
  | .fac f => .fac (f.renum w)
  | t => t

def Line.renum {κ : Type} (w : ℚ → ℚ) : Line κ → Line κ
  | .asg k ts => .asg k (ts.map (Tok.renum w))
  | l => l

/-- Numbers of an operand. -/
def Fac.numbers : Fac → List ℚ
  | .ypow _ s => [s]
  | .num q => [q]
  | _ => []

def Tok.numbers : Tok → List ℚ
  | .fac f => f.numbers
  | _ => []

def Line.numbers {κ : Type} : Line κ → List ℚ
  | .asg _ ts => ts.flatMap Tok.numbers
  | _ => []

/-- Binary operators. -/
def Tok.isOp : Tok → Bool
  | .mul => true
  | .plus => true
  | .minus => true
  | _ => false

/-- What follows an operand: operators and operands in turn, continuations only before operators. -/
inductive TailShape : List Tok → Prop
  | nil : TailShape []
  | op {o : Tok} {f : Fac} {ts : List Tok} (ho : o.isOp = true) (h : TailShape ts) : TailShape (o :: .fac f :: ts)
  | cont {o : Tok} {f : Fac} {ts : List Tok} (ho : o.isOp = true) (h : TailShape ts) :
      TailShape (.cont :: o :: .fac f :: ts)

/-- The right-hand sides the generators write. -/
inductive RhsShape : List Tok → Prop
  | nil : RhsShape []
  | fac {f : Fac} {ts : List Tok} (h : TailShape ts) : RhsShape (.fac f :: ts)
  | sign {o : Tok} {f : Fac} {ts : List Tok} (ho : o = .plus ∨ o = .minus) (h : TailShape ts) :
      RhsShape (o :: .fac f :: ts)

theorem TailShape.append {a b : List Tok} (ha : TailShape a) (hb : TailShape b) : TailShape (a ++ b) := by
  induction ha with
  | nil => exact hb
  | op ho _ ih => exact .op ho ih
  | cont ho _ ih => exact .cont ho ih

theorem RhsShape.append {a b : List Tok} (ha : RhsShape a) (h0 : a ≠ []) (hb : TailShape b) : RhsShape (a ++ b) := by
  cases ha with
  | nil => exact absurd rfl h0
  | fac h => exact .fac (h.append hb)
  | sign ho h => exact .sign ho (h.append hb)

/-- Reader tokens of an operand. -/
def Fac.tks (b : Backend) : Fac → List Tk
  | .y i => [.id ['y'], .sym (openOf b), .num i, .sym (closeOf b)]
  | .ypow i s => [.id ['y'], .sym (openOf b), .num i, .sym (closeOf b), .pow, .num s]
  | .r e => [.id ['r'], .sym (openOf b), .num e, .sym (closeOf b)]
  | .num q => [.num q]

def Tok.tks (b : Backend) : Tok → List Tk
  | .fac f => f.tks b
  | .mul => [.sym '*']
  | .plus => [.sym '+']
  | .minus => [.sym '-']
  | .cont => []

def rhsTks (b : Backend) (ts : List Tok) : List Tk := ts.flatMap (Tok.tks b)

/-- Text of a token after continued lines have been joined. -/
def Tok.flat (lang : Lang) (num : ℚ → Str) : Tok → Str
  | .cont => [' ']
  | t => t.text lang num

def rhsFlat (lang : Lang) (num : ℚ → Str) (ts : List Tok) : Str := (ts.map (Tok.flat lang num)).flatten

theorem lex_element (lang : Lang) {name : Char} (hname : name ∈ ['y', 'r']) (i : Nat) {t : Str} {ts : List Tk}
    (h : LexTo lang.backend t ts) :
    LexTo lang.backend (element lang [name] (digits i) ++ t) (.id [name] :: .sym (openOf lang.backend) ::
      .num i :: .sym (closeOf lang.backend) :: ts) := by
  unfold element
  simp only [List.append_assoc, List.cons_append, List.nil_append]
  have hcl : closeOf lang.backend ∈ ['+', '-', '/', '(', ')', '[', ']', '=', ':', ','] := by
    cases lang <;> decide
  have hop : openOf lang.backend ∈ ['+', '-', '/', '(', ')', '[', ']', '=', ':', ','] := by
    cases lang <;> decide
  have h1 := LexTo.sym hcl h
  have h2 := LexTo.numeral (digits_numeral i) (t := closeOf lang.backend :: t)
    (by rintro c ⟨⟩; cases lang <;> decide) h1
  have h3 := LexTo.sym hop h2
  have h4 := LexTo.ident (w := [name]) (by rcases (by simpa using hname : name = 'y' ∨ name = 'r') with rfl | rfl <;> decide)
    (by rcases (by simpa using hname : name = 'y' ∨ name = 'r') with rfl | rfl
        · exact ⟨'y', [], rfl, by decide, by decide, by decide⟩
        · exact ⟨'r', [], rfl, by decide, by decide, by decide⟩)
    (by rintro c ⟨⟩; cases lang <;> decide) h3
  exact h4

/-- The numbers of a list of tokens are printed as numerals. -/
def Printed (num : ℚ → Str) (w : ℚ → ℚ) (l : List ℚ) : Prop := ∀ q ∈ l, Spec.Numeral (num q) (w q)

theorem lex_fac (lang : Lang) {num : ℚ → Str} {w : ℚ → ℚ} (f : Fac) (hf : Printed num w f.numbers) {t : Str}
    {ts : List Tk} (ht : Stops t) (h : LexTo lang.backend t ts) :
    LexTo lang.backend (f.text lang num ++ t) ((f.renum w).tks lang.backend ++ ts) := by
  cases f with
  | y i => exact lex_element lang (by decide) i h
  | r i => exact lex_element lang (by decide) i h
  | num q => exact LexTo.numeral (hf q (by simp [Fac.numbers])) ht h
  | ypow i s =>
    have h1 := LexTo.pow (LexTo.numeral (hf s (by simp [Fac.numbers])) ht h)
    have e : "**".toList = ['*', '*'] := by decide
    simp only [Fac.text, e, List.append_assoc, List.cons_append, List.nil_append]
    exact lex_element lang (by decide) i h1

theorem fac_head (lang : Lang) {num : ℚ → Str} {w : ℚ → ℚ} (f : Fac) (hf : Printed num w f.numbers) (t : Str) :
    ∃ c u, f.text lang num ++ t = c :: u ∧ c ≠ '*' := by
  cases f with
  | y i => exact ⟨'y', _, rfl, by decide⟩
  | r i => exact ⟨'r', _, rfl, by decide⟩
  | ypow i s => exact ⟨'y', _, rfl, by decide⟩
  | num q =>
    obtain ⟨c, u, hu, hc⟩ := Numeral.head (hf q (by simp [Fac.numbers]))
    refine ⟨c, u ++ t, by simp only [Fac.text, hu, List.cons_append], ?_⟩
    rintro rfl
    exact absurd hc (by decide)

theorem lex_op (lang : Lang) {num : ℚ → Str} {o : Tok} (ho : o.isOp = true) {t : Str} (ht : ∃ c u, t = c :: u ∧ c ≠ '*')
    {ts : List Tk} (h : LexTo lang.backend t ts) :
    LexTo lang.backend (o.flat lang num ++ t) (o.tks lang.backend ++ ts) := by
  cases o with
  | mul =>
    obtain ⟨c, u, rfl, hc⟩ := ht
    exact LexTo.times (by simpa using hc) h
  | plus => exact LexTo.sym (by decide) h
  | minus => exact LexTo.sym (by decide) h
  | fac f => cases ho
  | cont => cases ho

theorem lex_tail (lang : Lang) {num : ℚ → Str} {w : ℚ → ℚ} {ts : List Tok} (h : TailShape ts)
    (hp : Printed num w (ts.flatMap Tok.numbers)) :
    LexTo lang.backend (rhsFlat lang num ts) (rhsTks lang.backend (ts.map (Tok.renum w))) ∧
      Stops (rhsFlat lang num ts) := by
  have stops_op : ∀ {o : Tok} (s : Str), o.isOp = true → Stops (o.flat lang num ++ s) := by
    intro o s ho c hc
    cases o with
    | mul => cases hc; decide
    | plus => cases hc; decide
    | minus => cases hc; decide
    | fac f => cases ho
    | cont => cases ho
  have step : ∀ {o : Tok} {f : Fac} {ts : List Tok}, o.isOp = true →
      Printed num w f.numbers →
      (LexTo lang.backend (rhsFlat lang num ts) (rhsTks lang.backend (ts.map (Tok.renum w))) ∧
      Stops (rhsFlat lang num ts)) →
      LexTo lang.backend (o.flat lang num ++ (f.text lang num ++ rhsFlat lang num ts))
        (o.tks lang.backend ++ ((f.renum w).tks lang.backend ++
          rhsTks lang.backend (ts.map (Tok.renum w)))) := by
    intro o f ts ho hf ih
    exact lex_op lang ho (fac_head lang f hf _) (lex_fac lang f hf ih.2 ih.1)
  have eop : ∀ {o : Tok}, o.isOp = true → o.renum w = o := by
    intro o ho; cases o <;> first | rfl | cases ho
  induction h with
  | nil => exact ⟨LexTo.nil _, by rintro c ⟨⟩⟩
  | @op o f ts ho h ih =>
    have ih := ih (fun q hq => hp q (by simp only [List.flatMap_cons, List.mem_append]; exact .inr (.inr hq)))
    have hf : Printed num w f.numbers :=
      fun q hq => hp q (by simp only [List.flatMap_cons, List.mem_append]; exact .inr (.inl hq))
    refine ⟨?_, ?_⟩
    · have := step ho hf ih
      simp only [List.map_cons, eop ho]
      exact this
    · exact stops_op _ ho
  | @cont o f ts ho h ih =>
    have ih := ih (fun q hq => hp q (by simp only [List.flatMap_cons, List.mem_append]; exact .inr (.inr (.inr hq))))
    have hf : Printed num w f.numbers :=
      fun q hq => hp q (by simp only [List.flatMap_cons, List.mem_append]; exact .inr (.inr (.inl hq)))
    refine ⟨?_, ?_⟩
    · have := LexTo.space (step ho hf ih)
      simp only [List.map_cons, eop ho]
      exact this
    · intro c hc; cases hc; decide

theorem lex_rhs (lang : Lang) {num : ℚ → Str} {w : ℚ → ℚ} {ts : List Tok} (h : RhsShape ts)
    (hp : Printed num w (ts.flatMap Tok.numbers)) :
    LexTo lang.backend (rhsFlat lang num ts) (rhsTks lang.backend (ts.map (Tok.renum w))) := by
  cases h with
  | nil => exact LexTo.nil _
  | @fac f ts h =>
    have ht := lex_tail lang h (fun q hq => hp q (by
      simp only [List.flatMap_cons, List.mem_append]; exact .inr hq))
    exact lex_fac lang f (fun q hq => hp q (by
      simp only [List.flatMap_cons, List.mem_append]; exact .inl hq)) ht.2 ht.1
  | @sign o f ts ho h =>
    have ho' : o.isOp = true := by rcases ho with rfl | rfl <;> rfl
    have := (lex_tail lang (TailShape.op (f := f) ho' h) hp).1
    exact this

/-! ### Reading the tokens -/

/-- The arrays an operand reads. -/
def Fac.arrays : Fac → List Str
  | .y _ => [['y']]
  | .ypow _ _ => [['y']]
  | .r _ => [['r']]
  | .num _ => []

def Tok.arrays : Tok → List Str
  | .fac f => f.arrays
  | _ => []

/-- The expression of an operand. -/
def Fac.ex : Fac → Ex
  | .y i => .var ⟨['y'], some i⟩
  | .ypow i s => .pow (.var ⟨['y'], some i⟩) (.num s)
  | .r e => .var ⟨['r'], some e⟩
  | .num q => .num q

theorem Fac.ex_uses (f : Fac) {arrays : List Str} (h : ∀ a ∈ f.arrays, a ∈ arrays) :
    f.ex.uses arrays = true := by
  cases f with
  | y i => simpa [Fac.ex, Ex.uses] using h ['y'] (by simp [Fac.arrays])
  | r i => simpa [Fac.ex, Ex.uses] using h ['r'] (by simp [Fac.arrays])
  | ypow i s => simpa [Fac.ex, Ex.uses] using h ['y'] (by simp [Fac.arrays])
  | num q => rfl

/-- The environment a language sees. -/
def Lang.sees (lang : Lang) (env : Env) : Env :=
  match lang with
  | .python => env
  | .fortran => env.shift

theorem Fac.ex_val (lang : Lang) (env : Env) (f : Fac) : f.ex.val (env.vals lang) = f.val (lang.sees env) := by
  cases f <;> cases lang <;> simp [Fac.ex, Ex.val, Fac.val, Env.vals, Lang.sees]

/-- What follows an operand is not a power sign. -/
def NoPow (ts : List Tk) : Prop := ts.head? ≠ some .pow

theorem parsePow_atom {b : Backend} {n : Nat} {ts ts' : List Tk} {a : Ex} (h : parseAtom b n ts = some (a, ts'))
    (h' : NoPow ts') : parsePow b (n + 1) ts = some (a, ts') := by
  rw [parsePow, h]
  cases ts' with
  | nil => rfl
  | cons t ts' =>
    cases t with
    | pow => exact absurd rfl h'
    | _ => rfl

theorem parseAtom_num (b : Backend) (n : Nat) (q : ℚ) (ts : List Tk) :
    parseAtom b (n + 1) (.num q :: ts) = some (.num q, ts) := by rw [parseAtom]

theorem parseUnary_num {b : Backend} {n : Nat} {q : ℚ} {ts : List Tk} (h : NoPow ts) :
    parseUnary b (n + 3) (.num q :: ts) = some (.num q, ts) := by
  rw [parseUnary]
  · exact parsePow_atom (parseAtom_num b n q ts) h
  · intro _ h; cases h
  · intro _ h; cases h

theorem parseAtom_element (lang : Lang) (c : Char) (i : Nat) (n : Nat) (ts : List Tk) (hc : c ∈ ['y', 'r']) :
    parseAtom lang.backend (n + 1) (.id [c] :: .sym (openOf lang.backend) :: .num i ::
      .sym (closeOf lang.backend) :: ts) = some (.var ⟨[c], some i⟩, ts) := by
  have hf : fnOf lang.backend [c] = none := by
    rcases (by simpa using hc : c = 'y' ∨ c = 'r') with rfl | rfl <;> cases lang <;> decide
  unfold parseAtom
  simp only [hf]
  rw [if_pos ⟨trivial, trivial⟩, subscript_nat]
  rfl

theorem parsePow_fac (lang : Lang) (f : Fac) (n : Nat) (ts : List Tk) (h : NoPow ts) :
    parsePow lang.backend (n + 5) (f.tks lang.backend ++ ts) = some (f.ex, ts) := by
  cases f with
  | y i => exact parsePow_atom (parseAtom_element lang _ i _ ts (by decide)) h
  | r i => exact parsePow_atom (parseAtom_element lang _ i _ ts (by decide)) h
  | num q => exact parsePow_atom (parseAtom_num _ _ q ts) h
  | ypow i s =>
    have h1 := parseAtom_element lang 'y' i (n + 3) (.pow :: .num s :: ts) (by decide)
    rw [parsePow]
    show (do
      let (a, ts) ← parseAtom lang.backend (n + 3 + 1) (.id ['y'] :: .sym (openOf lang.backend) :: .num i ::
        .sym (closeOf lang.backend) :: .pow :: .num s :: ts)
      match ts with
      | .pow :: ts => do
        let (c, ts) ← parseUnary lang.backend (n + 4) ts
        return (.pow a c, ts)
      | ts => return (a, ts) : Option (Ex × List Tk)) = _
    rw [h1]
    show (do
        let (c, ts) ← parseUnary lang.backend (n + 1 + 3) (.num s :: ts)
        return (Ex.pow (.var ⟨['y'], some i⟩) c, ts) : Option (Ex × List Tk)) = _
    rw [parseUnary_num h]
    rfl

theorem fac_tks_head (b : Backend) (f : Fac) (ts : List Tk) :
    ∃ t u, f.tks b ++ ts = t :: u ∧ ∀ c, t ≠ .sym c := by
  cases f <;> exact ⟨_, _, rfl, by intro c h; cases h⟩

theorem parseUnary_fac (lang : Lang) (f : Fac) (n : Nat) (ts : List Tk) (h : NoPow ts) :
    parseUnary lang.backend (n + 6) (f.tks lang.backend ++ ts) = some (f.ex, ts) := by
  have := parsePow_fac lang f n ts h
  obtain ⟨t, u, e, ht⟩ := fac_tks_head lang.backend f ts
  rw [parseUnary]
  · exact this
  · intro _ h1; exact absurd (List.cons.inj (e.symm.trans h1)).1 (ht _)
  · intro _ h1; exact absurd (List.cons.inj (e.symm.trans h1)).1 (ht _)

theorem tail_tks (lang : Lang) {ts : List Tok} (h : TailShape ts) : NoPow (rhsTks lang.backend ts) := by
  have hop : ∀ {o : Tok} (us : List Tk), o.isOp = true → NoPow (o.tks lang.backend ++ us) := by
    intro o us ho
    cases o with
    | mul => simp [NoPow, Tok.tks]
    | plus => simp [NoPow, Tok.tks]
    | minus => simp [NoPow, Tok.tks]
    | fac f => cases ho
    | cont => cases ho
  cases h with
  | nil => simp [NoPow, rhsTks]
  | op ho h => exact hop _ ho
  | @cont o f ts ho h =>
    have : rhsTks lang.backend (.cont :: o :: .fac f :: ts) = o.tks lang.backend ++ rhsTks lang.backend (.fac f :: ts) := rfl
    rw [this]
    exact hop _ ho

/-- Without continuations. -/
def joined (ts : List Tok) : List Tok := ts.filter (fun t => !decide (t = .cont))

/-- A tail that does not go on with a product. -/
def NoMul (ts : List Tk) : Prop := ts.head? ≠ some (.sym '*') ∧ ts.head? ≠ some (.sym '/')

/-- The factors of a product are read. -/
theorem parse_product (lang : Lang) (arrays : List Str) : ∀ {ts : List Tok}, TailShape ts →
    (∀ a ∈ ts.flatMap Tok.arrays, a ∈ arrays) → ∀ (n : Nat), ts.length + 8 ≤ n → ∀ (a : Ex),
    ∃ (a' : Ex) (rest : List Tok), TailShape rest ∧ rest.length ≤ ts.length ∧
      (∀ a ∈ rest.flatMap Tok.arrays, a ∈ arrays) ∧
      NoMul (rhsTks lang.backend rest) ∧
      prodTail lang.backend n a (rhsTks lang.backend ts) = some (a', rhsTks lang.backend rest) ∧
      (a.uses arrays = true → a'.uses arrays = true) ∧
      ∀ env : Env, ∃ k : ℝ, a'.val (env.vals lang) = a.val (env.vals lang) * k ∧
        ∀ acc p, evalTail (lang.sees env) acc p (joined ts) = evalTail (lang.sees env) acc (p * k) (joined rest) := by
  intro ts h
  have nothing : ∀ (us : List Tk) (n : Nat) (a : Ex), NoMul us →
      prodTail lang.backend (n + 1) a us = some (a, us) := by
    intro us n a hus
    rw [prodTail]
    · rintro ts rfl; exact hus.1 rfl
    · rintro ts rfl; exact hus.2 rfl
  have key : ∀ {o : Tok} {f : Fac} {ts : List Tok} (pre : List Tok), (pre = [] ∨ pre = [.cont]) →
      o.isOp = true → TailShape ts →
      ((∀ a ∈ ts.flatMap Tok.arrays, a ∈ arrays) → ∀ (n : Nat), ts.length + 8 ≤ n → ∀ (a : Ex),
      ∃ (a' : Ex) (rest : List Tok), TailShape rest ∧ rest.length ≤ ts.length ∧
      (∀ a ∈ rest.flatMap Tok.arrays, a ∈ arrays) ∧
      NoMul (rhsTks lang.backend rest) ∧
      prodTail lang.backend n a (rhsTks lang.backend ts) = some (a', rhsTks lang.backend rest) ∧
      (a.uses arrays = true → a'.uses arrays = true) ∧
      ∀ env : Env, ∃ k : ℝ, a'.val (env.vals lang) = a.val (env.vals lang) * k ∧
        ∀ acc p, evalTail (lang.sees env) acc p (joined ts) = evalTail (lang.sees env) acc (p * k) (joined rest)) →
      TailShape (pre ++ o :: .fac f :: ts) →
      (∀ a ∈ (pre ++ o :: .fac f :: ts).flatMap Tok.arrays, a ∈ arrays) → ∀ (n : Nat),
      (pre ++ o :: .fac f :: ts).length + 8 ≤ n → ∀ (a : Ex),
      ∃ (a' : Ex) (rest : List Tok), TailShape rest ∧ rest.length ≤ (pre ++ o :: .fac f :: ts).length ∧
      (∀ a ∈ rest.flatMap Tok.arrays, a ∈ arrays) ∧
      NoMul (rhsTks lang.backend rest) ∧
      prodTail lang.backend n a (rhsTks lang.backend (pre ++ o :: .fac f :: ts)) =
        some (a', rhsTks lang.backend rest) ∧
      (a.uses arrays = true → a'.uses arrays = true) ∧
      ∀ env : Env, ∃ k : ℝ, a'.val (env.vals lang) = a.val (env.vals lang) * k ∧
        ∀ acc p, evalTail (lang.sees env) acc p (joined (pre ++ o :: .fac f :: ts)) =
          evalTail (lang.sees env) acc (p * k) (joined rest) := by
    intro o f ts pre hpre ho hts ih hshape harr n hn a
    have etks : rhsTks lang.backend (pre ++ o :: .fac f :: ts) =
        o.tks lang.backend ++ (f.tks lang.backend ++ rhsTks lang.backend ts) := by
      rcases hpre with rfl | rfl <;> rfl
    have ejoin : joined (pre ++ o :: .fac f :: ts) = o :: .fac f :: joined ts := by
      have : joined (o :: .fac f :: ts) = o :: .fac f :: joined ts := by
        cases o with
        | fac g => cases ho
        | cont => cases ho
        | mul => rfl
        | plus => rfl
        | minus => rfl
      rcases hpre with rfl | rfl <;> exact this
    have hlen : ts.length + 10 ≤ n := by
      rw [List.length_append, List.length_cons, List.length_cons] at hn
      omega
    have hfin : ∀ a ∈ f.arrays, a ∈ arrays := fun a ha => harr a (by
      simp only [List.flatMap_append, List.flatMap_cons, List.mem_append]
      exact .inr (.inr (.inl ha)))
    have hrest : ∀ a ∈ ts.flatMap Tok.arrays, a ∈ arrays := fun a ha => harr a (by
      simp only [List.flatMap_append, List.flatMap_cons, List.mem_append]
      exact .inr (.inr (.inr ha)))
    obtain ⟨m, rfl⟩ : ∃ m, n = m + 7 := ⟨n - 7, by omega⟩
    by_cases hm : o = .mul
    · subst hm
      obtain ⟨a', rest, h1, h2, h3, h4, h5, h6, h7⟩ := ih hrest (m + 6) (by omega) (.mul a f.ex)
      refine ⟨a', rest, h1, ?_, h3, h4, ?_, ?_, ?_⟩
      · rw [List.length_append, List.length_cons, List.length_cons]; omega
      · rw [etks]
        simp only [Tok.tks, List.cons_append, List.nil_append]
        rw [prodTail, parseUnary_fac lang f m _ (tail_tks lang hts)]
        exact h5
      · intro ha
        exact h6 (by simp only [Ex.uses, ha, f.ex_uses hfin, Bool.and_self])
      · intro env
        obtain ⟨k, hk1, hk2⟩ := h7 env
        refine ⟨f.val (lang.sees env) * k, ?_, ?_⟩
        · rw [hk1, Ex.val, Fac.ex_val, mul_assoc]
        · intro acc p
          rw [ejoin, evalTail, hk2, mul_assoc]
    · have hno : NoMul (rhsTks lang.backend (pre ++ o :: .fac f :: ts)) := by
        rw [etks]
        cases o with
        | fac g => cases ho
        | cont => cases ho
        | mul => exact absurd rfl hm
        | plus => simp [NoMul, Tok.tks]
        | minus => simp [NoMul, Tok.tks]
      refine ⟨a, _, hshape, le_refl _, harr, hno, nothing _ _ _ hno, id, ?_⟩
      intro env
      exact ⟨1, by rw [mul_one], fun acc p => by rw [mul_one]⟩
  induction h with
  | nil =>
    intro harr n hn a
    obtain ⟨m, rfl⟩ : ∃ m, n = m + 1 := ⟨n - 1, by omega⟩
    have hno : NoMul (rhsTks lang.backend []) := by simp [NoMul, rhsTks]
    exact ⟨a, [], .nil, le_refl _, harr, hno, nothing _ _ _ hno, id,
      fun env => ⟨1, by rw [mul_one], fun acc p => by rw [mul_one]⟩⟩
  | op ho h ih => exact key [] (.inl rfl) ho h ih (.op ho h)
  | cont ho h ih => exact key [.cont] (.inr rfl) ho h ih (.cont ho h)

/-- The first operand of a term. -/
theorem parseProd_fac (lang : Lang) (f : Fac) (n : Nat) (ts : List Tk) (h : NoPow ts) :
    parseProd lang.backend (n + 7) (f.tks lang.backend ++ ts) = prodTail lang.backend (n + 6) f.ex ts := by
  rw [parseProd]
  cases lang with
  | python =>
    have := parseUnary_fac .python f n ts h
    rw [if_neg (by decide)]
    rw [this]
    rfl
  | fortran =>
    have := parsePow_fac .fortran f (n + 1) ts h
    rw [if_pos (by rfl), this]
    rfl

/-- The terms of a sum are read. -/
theorem parse_sum (lang : Lang) (arrays : List Str) : ∀ (m : Nat) {ts : List Tok}, ts.length ≤ m → TailShape ts →
    (∀ a ∈ ts.flatMap Tok.arrays, a ∈ arrays) → NoMul (rhsTks lang.backend ts) → ∀ (n : Nat), ts.length + 8 ≤ n →
    ∀ (s : Ex), s.uses arrays = true → ∃ e : Ex, sumTail lang.backend n s (rhsTks lang.backend ts) = some (e, []) ∧
      e.uses arrays = true ∧ ∀ (env : Env) (acc p : ℝ), acc + p = s.val (env.vals lang) →
        evalTail (lang.sees env) acc p (joined ts) = some (e.val (env.vals lang)) := by
  intro m
  induction m with
  | zero =>
    intro ts hm h harr hno n hn s hs
    have : ts = [] := List.length_eq_zero_iff.1 (by omega)
    subst this
    obtain ⟨n, rfl⟩ : ∃ m, n = m + 1 := ⟨n - 1, by omega⟩
    refine ⟨s, ?_, hs, ?_⟩
    · show sumTail lang.backend (n + 1) s [] = _
      rw [sumTail]
      · intro ts ht; cases ht
      · intro ts ht; cases ht
    · intro env acc p hp
      show evalTail _ acc p [] = _
      rw [evalTail, hp]
  | succ m ih =>
    intro ts hm h harr hno n hn s hs
    have key : ∀ {o : Tok} {f : Fac} {us : List Tok} (pre : List Tok), (pre = [] ∨ pre = [.cont]) →
        o.isOp = true → TailShape us → ts = pre ++ o :: .fac f :: us →
        ∃ e : Ex, sumTail lang.backend n s (rhsTks lang.backend ts) = some (e, []) ∧
          e.uses arrays = true ∧ ∀ (env : Env) (acc p : ℝ), acc + p = s.val (env.vals lang) →
            evalTail (lang.sees env) acc p (joined ts) = some (e.val (env.vals lang)) := by
      intro o f us pre hpre ho hus hts
      subst hts
      have etks : rhsTks lang.backend (pre ++ o :: .fac f :: us) =
          o.tks lang.backend ++ (f.tks lang.backend ++ rhsTks lang.backend us) := by
        rcases hpre with rfl | rfl <;> rfl
      have ejoin : joined (pre ++ o :: .fac f :: us) = o :: .fac f :: joined us := by
        have : joined (o :: .fac f :: us) = o :: .fac f :: joined us := by
          cases o with
          | fac g => cases ho
          | cont => cases ho
          | mul => rfl
          | plus => rfl
          | minus => rfl
        rcases hpre with rfl | rfl <;> exact this
      have hlen : us.length + 10 ≤ n := by
        rw [List.length_append, List.length_cons, List.length_cons] at hn
        omega
      have hlen' : us.length + 2 ≤ m + 1 := by
        rw [List.length_append, List.length_cons, List.length_cons] at hm
        omega
      have hfin : ∀ a ∈ f.arrays, a ∈ arrays := fun a ha => harr a (by
        simp only [List.flatMap_append, List.flatMap_cons, List.mem_append]
        exact .inr (.inr (.inl ha)))
      have hrest : ∀ a ∈ us.flatMap Tok.arrays, a ∈ arrays := fun a ha => harr a (by
        simp only [List.flatMap_append, List.flatMap_cons, List.mem_append]
        exact .inr (.inr (.inr ha)))
      obtain ⟨n, rfl⟩ : ∃ m, n = m + 8 := ⟨n - 8, by omega⟩
      obtain ⟨c, rest, h1, h2, h3, h4, h5, h6, h7⟩ :=
        parse_product lang arrays hus hrest (n + 6) (by omega) f.ex
      have hprod : parseProd lang.backend (n + 7) (f.tks lang.backend ++ rhsTks lang.backend us) =
          some (c, rhsTks lang.backend rest) := by
        rw [parseProd_fac lang f n _ (tail_tks lang hus), h5]
      have hc := h6 (f.ex_uses hfin)
      rw [etks, ejoin]
      cases o with
      | fac g => cases ho
      | cont => cases ho
      | mul => rw [etks] at hno; exact absurd rfl hno.1
      | plus =>
        obtain ⟨e, he1, he2, he3⟩ := ih (by omega) h1 h3 h4 (n + 7) (by omega) (.add s c)
          (by simp only [Ex.uses, hs, hc, Bool.and_self])
        refine ⟨e, ?_, he2, ?_⟩
        · simp only [Tok.tks, List.cons_append, List.nil_append]
          rw [sumTail, hprod]
          exact he1
        · intro env acc p hp
          obtain ⟨k, hk1, hk2⟩ := h7 env
          rw [evalTail, hk2]
          exact he3 env _ _ (by rw [Ex.val, hk1, Fac.ex_val, hp])
      | minus =>
        obtain ⟨e, he1, he2, he3⟩ := ih (by omega) h1 h3 h4 (n + 7) (by omega) (.sub s c)
          (by simp only [Ex.uses, hs, hc, Bool.and_self])
        refine ⟨e, ?_, he2, ?_⟩
        · simp only [Tok.tks, List.cons_append, List.nil_append]
          rw [sumTail, hprod]
          exact he1
        · intro env acc p hp
          obtain ⟨k, hk1, hk2⟩ := h7 env
          rw [evalTail, hk2]
          exact he3 env _ _ (by rw [Ex.val, hk1, Fac.ex_val, hp]; ring)
    cases h with
    | nil => exact ih (by simp) .nil harr hno n hn s hs
    | op ho h => exact key [] (.inl rfl) ho h rfl
    | cont ho h => exact key [.cont] (.inr rfl) ho h rfl

theorem rhsTks_length (lang : Lang) {ts : List Tok} (h : TailShape ts) :
    ts.length ≤ 2 * (rhsTks lang.backend ts).length := by
  have hf : ∀ f : Fac, 1 ≤ (f.tks lang.backend).length := by intro f; cases f <;> simp [Fac.tks]
  have ho : ∀ {o : Tok}, o.isOp = true → (o.tks lang.backend).length = 1 := by
    intro o ho; cases o <;> first | rfl | cases ho
  induction h with
  | nil => simp
  | @op o f ts h1 h ih =>
    have e : (rhsTks lang.backend (o :: .fac f :: ts)).length =
        (o.tks lang.backend).length + ((f.tks lang.backend).length + (rhsTks lang.backend ts).length) := by
      simp [rhsTks, Tok.tks]
    rw [e, ho h1]
    have := hf f
    simp only [List.length_cons]
    omega
  | @cont o f ts h1 h ih =>
    have e : (rhsTks lang.backend (.cont :: o :: .fac f :: ts)).length =
        (o.tks lang.backend).length + ((f.tks lang.backend).length + (rhsTks lang.backend ts).length) := by
      simp [rhsTks, Tok.tks]
    rw [e, ho h1]
    have := hf f
    simp only [List.length_cons]
    omega

theorem parse_rhs (lang : Lang) (arrays : List Str) {ts : List Tok} (h : RhsShape ts) (h0 : ts ≠ [])
    (harr : ∀ a ∈ ts.flatMap Tok.arrays, a ∈ arrays) :
    ∃ e : Ex, parseExpr lang.backend (rhsTks lang.backend ts) = some e ∧ e.uses arrays = true ∧
      ∀ env : Env, evalExpr (lang.sees env) (joined ts) = some (e.val (env.vals lang)) := by
  -- one term and the rest of the sum
  have main : ∀ (f : Fac) (us : List Tok), TailShape us → (∀ a ∈ f.arrays, a ∈ arrays) →
      (∀ a ∈ us.flatMap Tok.arrays, a ∈ arrays) → ∀ n, us.length + 2 ≤ n →
      ∃ (c : Ex) (rest : List Tok), c.uses arrays = true ∧ TailShape rest ∧
        parseProd lang.backend (n + 7) (f.tks lang.backend ++ rhsTks lang.backend us) =
          some (c, rhsTks lang.backend rest) ∧ 
        (∀ s : Ex, s.uses arrays = true → ∃ e, sumTail lang.backend (n + 7) s (rhsTks lang.backend rest) =
          some (e, []) ∧ e.uses arrays = true ∧ ∀ (env : Env) (acc p : ℝ), acc + p = s.val (env.vals lang) →
            evalTail (lang.sees env) acc p (joined rest) = some (e.val (env.vals lang))) ∧
        ∀ env : Env, ∃ k : ℝ, c.val (env.vals lang) = f.val (lang.sees env) * k ∧
          ∀ acc p, evalTail (lang.sees env) acc p (joined us) =
            evalTail (lang.sees env) acc (p * k) (joined rest) := by
    intro f us hus hf hrest n hn
    obtain ⟨c, rest, h1, h2, h3, h4, h5, h6, h7⟩ :=
      parse_product lang arrays hus hrest (n + 6) (by omega) f.ex
    refine ⟨c, rest, h6 (f.ex_uses hf), h1, ?_, ?_, ?_⟩
    · rw [parseProd_fac lang f n _ (tail_tks lang hus), h5]
    · intro s hs
      exact parse_sum lang arrays _ (le_refl _) h1 h3 h4 (n + 7) (by omega) s hs
    · intro env
      obtain ⟨k, hk1, hk2⟩ := h7 env
      exact ⟨k, by rw [hk1, Fac.ex_val], hk2⟩
  have noSign : ∀ (f : Fac) (ts : List Tk) (n : Nat), parseSum lang.backend (n + 1) (f.tks lang.backend ++ ts) =
      (parseProd lang.backend n (f.tks lang.backend ++ ts)).bind (fun p => sumTail lang.backend n p.1 p.2) := by
    intro f ts n
    obtain ⟨t, u, e, ht⟩ := fac_tks_head lang.backend f ts
    rw [parseSum]
    · rfl
    · intro us _ hu; exact ht _ (List.cons.inj (e.symm.trans hu)).1
    · intro us _ hu; exact ht _ (List.cons.inj (e.symm.trans hu)).1
  cases h with
  | nil => exact absurd rfl h0
  | @fac f us hus =>
    have hlen := rhsTks_length lang hus
    have etks : rhsTks lang.backend (.fac f :: us) = f.tks lang.backend ++ rhsTks lang.backend us := rfl
    have hL : (rhsTks lang.backend (.fac f :: us)).length =
      (f.tks lang.backend).length + (rhsTks lang.backend us).length := by rw [etks, List.length_append]
    obtain ⟨n, hn⟩ : ∃ n, 8 * (rhsTks lang.backend (.fac f :: us)).length + 8 = n + 8 := ⟨_, rfl⟩
    have hf1 : 1 ≤ (f.tks lang.backend).length := by cases f <;> simp [Fac.tks]
    obtain ⟨c, rest, hc, hrest, h1, h2, h3⟩ := main f us hus
      (fun a ha => harr a (by simp only [List.flatMap_cons, List.mem_append]; exact .inl ha))
      (fun a ha => harr a (by simp only [List.flatMap_cons, List.mem_append]; exact .inr ha)) n (by omega)
    obtain ⟨e, he1, he2, he3⟩ := h2 c hc
    refine ⟨e, ?_, he2, ?_⟩
    · unfold parseExpr
      rw [hn, etks, noSign, h1]
      dsimp only [Option.bind]
      rw [he1]
    · intro env
      obtain ⟨k, hk1, hk2⟩ := h3 env
      show evalTail (lang.sees env) 0 (f.val (lang.sees env)) (joined us) = _
      rw [hk2]
      exact he3 env 0 _ (by rw [zero_add, hk1])
  | @sign o f us ho hus =>
    have hlen := rhsTks_length lang hus
    have harr1 : ∀ a ∈ f.arrays, a ∈ arrays := fun a ha => harr a (by
      simp only [List.flatMap_cons, List.mem_append]; exact .inr (.inl ha))
    have harr2 : ∀ a ∈ us.flatMap Tok.arrays, a ∈ arrays := fun a ha => harr a (by
      simp only [List.flatMap_cons, List.mem_append]; exact .inr (.inr ha))
    have etks : rhsTks lang.backend (o :: .fac f :: us) =
      o.tks lang.backend ++ (f.tks lang.backend ++ rhsTks lang.backend us) := rfl
    have hone : (o.tks lang.backend).length = 1 := by rcases ho with rfl | rfl <;> rfl
    have hL : (rhsTks lang.backend (o :: .fac f :: us)).length =
      1 + ((f.tks lang.backend).length + (rhsTks lang.backend us).length) := by
      rw [etks, List.length_append, List.length_append, hone]
    have hf1 : 1 ≤ (f.tks lang.backend).length := by cases f <;> simp [Fac.tks]
    cases lang with
    | fortran =>
      obtain ⟨n, hn⟩ : ∃ n, 8 * (rhsTks Lang.fortran.backend (o :: .fac f :: us)).length + 8 = n + 8 := ⟨_, rfl⟩
      obtain ⟨c, rest, hc, hrest, h1, h2, h3⟩ := main f us hus harr1 harr2 n (by omega)
      rcases ho with rfl | rfl
      · obtain ⟨e, he1, he2, he3⟩ := h2 c hc
        refine ⟨e, ?_, he2, ?_⟩
        · unfold parseExpr
          rw [hn, etks]
          have : parseSum Lang.fortran.backend (n + 8) (Tok.plus.tks Lang.fortran.backend ++
              (f.tks Lang.fortran.backend ++ rhsTks Lang.fortran.backend us)) = some (e, []) := by
            show parseSum .fortran (n + 8) (.sym '+' :: (f.tks Lang.fortran.backend ++ rhsTks Lang.fortran.backend us)) = _
            rw [parseSum]
            exact (congrArg (fun o : Option (Ex × List Tk) => o.bind (fun p => sumTail .fortran (n + 7) p.1 p.2)) h1).trans he1
          rw [this]
        · intro env
          obtain ⟨k, hk1, hk2⟩ := h3 env
          show evalTail (Lang.fortran.sees env) 0 (f.val (Lang.fortran.sees env)) (joined us) = _
          rw [hk2]
          exact he3 env 0 _ (by rw [zero_add, hk1])
      · obtain ⟨e, he1, he2, he3⟩ := h2 (.neg c) hc
        refine ⟨e, ?_, he2, ?_⟩
        · unfold parseExpr
          rw [hn, etks]
          have : parseSum Lang.fortran.backend (n + 8) (Tok.minus.tks Lang.fortran.backend ++
              (f.tks Lang.fortran.backend ++ rhsTks Lang.fortran.backend us)) = some (e, []) := by
            show parseSum .fortran (n + 8) (.sym '-' :: (f.tks Lang.fortran.backend ++ rhsTks Lang.fortran.backend us)) = _
            rw [parseSum]
            exact (congrArg (fun o : Option (Ex × List Tk) => o.bind (fun p => sumTail .fortran (n + 7) (.neg p.1) p.2)) h1).trans he1
          rw [this]
        · intro env
          obtain ⟨k, hk1, hk2⟩ := h3 env
          show evalTail (Lang.fortran.sees env) 0 (-f.val (Lang.fortran.sees env)) (joined us) = _
          rw [hk2]
          exact he3 env 0 _ (by rw [zero_add, Ex.val, hk1, neg_mul])
    | python =>
      obtain ⟨n, hn⟩ : ∃ n, 8 * (rhsTks Lang.python.backend (o :: .fac f :: us)).length + 8 = n + 9 :=
        ⟨8 * (rhsTks Lang.python.backend (o :: .fac f :: us)).length - 1, by omega⟩
      -- the sign belongs to the first operand
      have hsum : ∀ (c : Char) (ts : List Tk), parseSum .numba (n + 9) (.sym c :: ts) =
          (parseUnary .numba (n + 7) (.sym c :: ts)).bind (fun p =>
            (prodTail .numba (n + 7) p.1 p.2).bind (fun p => sumTail .numba (n + 8) p.1 p.2)) := by
        intro c ts
        rw [parseSum]
        · rw [parseProd, if_neg (by decide)]
          cases parseUnary .numba (n + 7) (.sym c :: ts) with
          | none => rfl
          | some p => rfl
        · intro _ h; cases h
        · intro _ h; cases h
      have hun := parseUnary_fac .python f n (rhsTks Lang.python.backend us) (tail_tks .python hus)
      rcases ho with rfl | rfl
      · have hs : parseUnary .numba (n + 7) (.sym '+' :: (f.tks .numba ++ rhsTks .numba us)) =
            some (f.ex, rhsTks .numba us) := by
          rw [parseUnary]; exact hun
        obtain ⟨c, rest, h1, h2, h3, h4, h5, h6, h7⟩ :=
          parse_product .python arrays hus harr2 (n + 7) (by omega) f.ex
        obtain ⟨e, he1, he2, he3⟩ := parse_sum .python arrays _ (le_refl _) h1 h3 h4 (n + 8) (by omega) c
          (h6 (f.ex_uses harr1))
        refine ⟨e, ?_, he2, ?_⟩
        · unfold parseExpr
          rw [hn, etks]
          have : parseSum Lang.python.backend (n + 9) (Tok.plus.tks Lang.python.backend ++
              (f.tks Lang.python.backend ++ rhsTks Lang.python.backend us)) = some (e, []) := by
            refine (hsum '+' _).trans ?_
            refine (congrArg (fun o : Option (Ex × List Tk) => o.bind _) hs).trans ?_
            exact (congrArg (fun o : Option (Ex × List Tk) => o.bind _) h5).trans he1
          rw [this]
        · intro env
          obtain ⟨k, hk1, hk2⟩ := h7 env
          show evalTail (Lang.python.sees env) 0 (f.val (Lang.python.sees env)) (joined us) = _
          rw [hk2]
          exact he3 env 0 _ (by rw [zero_add, hk1, Fac.ex_val])
      · have hs : parseUnary .numba (n + 7) (.sym '-' :: (f.tks .numba ++ rhsTks .numba us)) =
            some (.neg f.ex, rhsTks .numba us) := by
          rw [parseUnary]
          exact (congrArg (fun o : Option (Ex × List Tk) => o.bind (fun p => some (Ex.neg p.1, p.2))) hun).trans rfl
        obtain ⟨c, rest, h1, h2, h3, h4, h5, h6, h7⟩ :=
          parse_product .python arrays hus harr2 (n + 7) (by omega) (.neg f.ex)
        obtain ⟨e, he1, he2, he3⟩ := parse_sum .python arrays _ (le_refl _) h1 h3 h4 (n + 8) (by omega) c
          (h6 (f.ex_uses harr1))
        refine ⟨e, ?_, he2, ?_⟩
        · unfold parseExpr
          rw [hn, etks]
          have : parseSum Lang.python.backend (n + 9) (Tok.minus.tks Lang.python.backend ++
              (f.tks Lang.python.backend ++ rhsTks Lang.python.backend us)) = some (e, []) := by
            refine (hsum '-' _).trans ?_
            refine (congrArg (fun o : Option (Ex × List Tk) => o.bind _) hs).trans ?_
            exact (congrArg (fun o : Option (Ex × List Tk) => o.bind _) h5).trans he1
          rw [this]
        · intro env
          obtain ⟨k, hk1, hk2⟩ := h7 env
          show evalTail (Lang.python.sees env) 0 (-f.val (Lang.python.sees env)) (joined us) = _
          rw [hk2]
          exact he3 env 0 _ (by rw [zero_add, hk1, Ex.val, Fac.ex_val])

theorem parse_empty (lang : Lang) : parseExpr lang.backend [] = none := by
  cases lang <;> rfl

/-! ### Statements -/

/-- Subscripts are read back. -/
class LawfulPlace (κ : Type) [Place κ] where
  tks : κ → List Tk
  lex : ∀ (b : Backend) (k : κ) {t : Str} {ts : List Tk}, Stops t → LexTo b t ts →
    LexTo b (Place.text k ++ t) (tks k ++ ts)
  read : ∀ (k : κ) (ts : List Tk), Place.read (tks k ++ ts) = some (k, ts)
  chars : ∀ (k : κ), ∀ c ∈ Place.text k, isDigit c = true ∨ c = ','

theorem digits_chars (k : Nat) : ∀ c ∈ digits k, isDigit c = true := isDigit_toDigits k

instance : LawfulPlace Nat where
  tks k := [.num k]
  lex b k _ _ ht h := LexTo.numeral (digits_numeral k) ht h
  read k ts := by
    show (subscript (k : ℚ)).map (fun k => (k, ts)) = _
    rw [subscript_nat]; rfl
  chars k c hc := .inl (digits_chars k c hc)

instance : LawfulPlace (Nat × Nat) where
  tks p := [.num p.1, .sym ',', .num p.2]
  lex b p t ts ht h := by
    have h1 := LexTo.sym (c := ',') (by decide) (LexTo.numeral (digits_numeral p.2) ht h)
    have h2 := LexTo.numeral (digits_numeral p.1) (t := ',' :: (digits p.2 ++ t)) (by rintro c ⟨⟩; decide) h1
    simpa [Place.text] using h2
  read p ts := by
    show (subscript (p.1 : ℚ)).bind (fun k => (subscript (p.2 : ℚ)).bind (fun k' => some ((k, k'), ts))) = _
    rw [subscript_nat, subscript_nat]; rfl
  chars p c hc := by
    rcases List.mem_append.1 hc with h | h
    · exact .inl (digits_chars _ c h)
    · rcases List.mem_cons.1 h with h | h
      · exact .inr h
      · exact .inl (digits_chars _ c h)

/-- Lower-case names of arrays. -/
def NameOk (s : Str) : Prop := s ≠ [] ∧ ∀ c ∈ s, isLetter c = true ∧ isSpace c = false ∧ isDigit c = false ∧
  (('a' ≤ c ∧ c ≤ 'z') ∨ c = '_')

/-- The assignment as one line of code. -/
def asgCode {κ : Type} [Place κ] (lang : Lang) (array : Str) (num : ℚ → Str) (k : κ) (ts : List Tok) : Str :=
  element lang array (Place.text k) ++ '=' :: rhsFlat lang num ts

theorem lex_asg {κ : Type} [Place κ] [LawfulPlace κ] (lang : Lang) {array : Str} (ha : NameOk array)
    {num : ℚ → Str} {w : ℚ → ℚ} (k : κ) {ts : List Tok} (h : RhsShape ts)
    (hp : Printed num w (ts.flatMap Tok.numbers)) :
    LexTo lang.backend (asgCode lang array num k ts) (.id array :: .sym (openOf lang.backend) ::
      (LawfulPlace.tks k ++ .sym (closeOf lang.backend) :: .sym '=' ::
        rhsTks lang.backend (ts.map (Tok.renum w)))) := by
  have hcl : closeOf lang.backend ∈ ['+', '-', '/', '(', ')', '[', ']', '=', ':', ','] := by
    cases lang <;> decide
  have hop : openOf lang.backend ∈ ['+', '-', '/', '(', ')', '[', ']', '=', ':', ','] := by
    cases lang <;> decide
  have h1 := LexTo.sym hcl (LexTo.sym (c := '=') (by decide) (lex_rhs lang h hp))
  have h2 := LexTo.sym hop (LawfulPlace.lex lang.backend k (by rintro c ⟨⟩; cases lang <;> decide) h1)
  have h3 := LexTo.ident (w := array) (fun c hc => by simp [isIdent, (ha.2 c hc).1])
    (by
      obtain ⟨h0, h1⟩ := ha
      cases array with
      | nil => exact absurd rfl h0
      | cons c u =>
        obtain ⟨h2, h3, h4, -⟩ := h1 c (by simp)
        exact ⟨c, u, rfl, h2, h3, h4⟩)
    (by rintro c ⟨⟩; cases lang <;> decide) h2
  unfold asgCode element
  simpa using h3

theorem read_asg {κ : Type} [Place κ] [LawfulPlace κ] (F : Frame) (ha : NameOk F.array)
    {num : ℚ → Str} {w : ℚ → ℚ} (k : κ) {ts : List Tok} (h : RhsShape ts)
    (hp : Printed num w (ts.flatMap Tok.numbers)) (i : Nat) (hi : F.lang = .python → i = 4) :
    readCmd F (i, asgCode F.lang F.array num k ts) =
      (readRhs F (rhsTks F.lang.backend (ts.map (Tok.renum w)))).map (Cmd.asg k) := by
  have hl : lexLine F.lang.backend (asgCode F.lang F.array num k ts) = _ := lex_asg F.lang ha k h hp
  unfold readCmd
  rw [if_neg (by rintro ⟨h1, h2⟩; exact h2 (hi h1))]
  dsimp only
  rw [hl]
  dsimp only
  rw [if_pos ⟨rfl, rfl⟩]
  unfold readTarget
  rw [LawfulPlace.read]
  exact if_pos rfl

theorem TailShape.renum (w : ℚ → ℚ) {ts : List Tok} (h : TailShape ts) : TailShape (ts.map (Tok.renum w)) := by
  have hop : ∀ {o : Tok}, o.isOp = true → (o.renum w).isOp = true := by
    intro o ho; cases o <;> first | rfl | cases ho
  induction h with
  | nil => exact .nil
  | op ho _ ih => exact .op (hop ho) ih
  | cont ho _ ih => exact .cont (hop ho) ih

theorem RhsShape.renum (w : ℚ → ℚ) {ts : List Tok} (h : RhsShape ts) : RhsShape (ts.map (Tok.renum w)) := by
  cases h with
  | nil => exact .nil
  | fac h => exact .fac (h.renum w)
  | sign ho h => exact .sign (by rcases ho with rfl | rfl <;> simp [Tok.renum]) (h.renum w)

theorem arrays_renum (w : ℚ → ℚ) (ts : List Tok) :
    (ts.map (Tok.renum w)).flatMap Tok.arrays = ts.flatMap Tok.arrays := by
  rw [List.flatMap_map]
  congr 1
  funext t
  cases t with
  | fac f => cases f <;> rfl
  | _ => rfl

/-- The right-hand side that is read has the value of the tokens, or both fail. -/
theorem readRhs_eval (F : Frame) {w : ℚ → ℚ} {ts : List Tok} (h : RhsShape ts)
    (harr : ∀ a ∈ ts.flatMap Tok.arrays, a ∈ F.inputs) (hc : F.lang = .python → Tok.cont ∉ ts) :
    (∃ e, readRhs F (rhsTks F.lang.backend (ts.map (Tok.renum w))) = some e ∧
      ∀ env, evalRhs F.lang env (ts.map (Tok.renum w)) = some (e.val (env.vals F.lang))) ∨
    (readRhs F (rhsTks F.lang.backend (ts.map (Tok.renum w))) = none ∧
      ∀ env, evalRhs F.lang env (ts.map (Tok.renum w)) = none) := by
  by_cases h0 : ts = []
  · subst h0
    right
    constructor
    · unfold readRhs
      rw [List.map_nil]
      show (parseExpr F.lang.backend []).bind _ = none
      rw [parse_empty]
      rfl
    · intro env
      unfold evalRhs
      cases F.lang <;> rfl
  · left
    obtain ⟨e, he1, he2, he3⟩ := parse_rhs F.lang F.inputs (h.renum w) (by simpa using h0)
      (by rw [arrays_renum]; exact harr)
    refine ⟨e, ?_, ?_⟩
    · unfold readRhs
      rw [he1]
      exact if_pos he2
    · intro env
      rw [← he3 env]
      unfold evalRhs
      cases hl : F.lang with
      | python =>
        show evalExpr env _ = evalExpr env (joined _)
        congr 1
        symm
        unfold joined
        rw [List.filter_eq_self]
        intro t ht
        obtain ⟨u, hu, rfl⟩ := List.mem_map.1 ht
        rw [Bool.not_eq_true', decide_eq_false_iff_not]
        intro hcont
        cases u with
        | cont => exact hc hl hu
        | fac f => cases hcont
        | mul => cases hcont
        | plus => cases hcont
        | minus => cases hcont
      | fortran => rfl

/-! ### Lines -/

/-- Characters of a statement: none of them is white space, a comment sign or a continuation, and Fortran
does not change them. -/
def solid (c : Char) : Bool :=
  isDigit c || (decide ('a' ≤ c) && decide (c ≤ 'z')) ||
    decide (c ∈ ['_', '.', '+', '-', '*', '(', ')', '[', ']', '=', ','])

/-- A piece of code without blanks. -/
def Solid (s : Str) : Prop := ∀ c ∈ s, solid c = true

theorem solid_range {c : Char} (h : solid c = true) : (40 ≤ c.toNat ∧ c.toNat ≤ 61) ∨ c.toNat = 91 ∨ c.toNat = 93 ∨
    c.toNat = 95 ∨ (97 ≤ c.toNat ∧ c.toNat ≤ 122) := by
  unfold solid isDigit at h
  simp only [Bool.or_eq_true, Bool.and_eq_true, decide_eq_true_eq] at h
  rcases h with (⟨h1, h2⟩ | ⟨h1, h2⟩) | h
  · have h48 : '0'.toNat = 48 := rfl
    have h57 : '9'.toNat = 57 := rfl
    omega
  · have h1 : 97 ≤ c.toNat := h1
    have h2 : c.toNat ≤ 122 := h2
    omega
  · exact (by decide : ∀ c ∈ ['_', '.', '+', '-', '*', '(', ')', '[', ']', '=', ','],
      (40 ≤ c.toNat ∧ c.toNat ≤ 61) ∨ c.toNat = 91 ∨ c.toNat = 93 ∨
        c.toNat = 95 ∨ (97 ≤ c.toNat ∧ c.toNat ≤ 122)) c h

theorem solid_space {c : Char} (h : solid c = true) : isSpace c = false := by
  have := solid_range h
  unfold isSpace
  simp only [Bool.or_eq_false_iff, Bool.and_eq_false_imp, decide_eq_true_eq, decide_eq_false_iff_not,
    beq_eq_false_iff_ne]
  omega

theorem Solid.not_mem {s : Str} (h : Solid s) {c : Char} (hc : solid c = false) : c ∉ s := by
  intro hm
  rw [h c hm] at hc
  cases hc

theorem Solid.lower {s : Str} (h : Solid s) : lower s = s := by
  unfold Rl.lower
  conv_rhs => rw [← List.map_id s]
  refine List.map_congr_left fun c hc => ?_
  have := solid_range (h c hc)
  have h65 : 'A'.toNat = 65 := rfl
  have h90 : 'Z'.toNat = 90 := rfl
  rw [if_neg (by rw [h65, h90]; omega)]
  rfl

theorem Solid.append {s t : Str} (hs : Solid s) (ht : Solid t) : Solid (s ++ t) := by
  intro c hc
  rcases List.mem_append.1 hc with h | h
  · exact hs c h
  · exact ht c h

theorem Solid.cons {c : Char} {t : Str} (hc : solid c = true) (ht : Solid t) : Solid (c :: t) := by
  intro a ha
  rcases List.mem_cons.1 ha with rfl | h
  · exact hc
  · exact ht a h

theorem digits_solid {s : Str} (h : ∀ c ∈ s, isDigit c = true) : Solid s := by
  intro c hc
  simp [solid, h c hc]

theorem Numeral.solid {s : Str} {q : ℚ} (h : Spec.Numeral s q) : Solid s := by
  induction h with
  | whole hw => exact digits_solid (digits_isDigit hw)
  | point hw hf =>
    exact (digits_solid (digits_isDigit hw)).append (Solid.cons (by decide) (digits_solid (digits_isDigit hf)))
  | big hs he hx ih =>
    exact ih.append (Solid.cons (by decide) (Solid.cons (by decide) (digits_solid (digits_isDigit hx))))
  | small hs he hx ih =>
    exact ih.append (Solid.cons (by decide) (Solid.cons (by decide) (digits_solid (digits_isDigit hx))))

theorem element_solid (lang : Lang) {name place : Str} (hn : Solid name) (hp : Solid place) :
    Solid (element lang name place) := by
  unfold element
  refine hn.append (Solid.cons (by cases lang <;> decide) (hp.append ?_))
  intro c hc
  rw [List.mem_singleton.1 hc]
  cases lang <;> decide

theorem fac_solid (lang : Lang) {num : ℚ → Str} {w : ℚ → ℚ} (f : Fac) (hf : Printed num w f.numbers) :
    Solid (f.text lang num) := by
  cases f with
  | y i => exact element_solid lang (by unfold Solid; decide) (digits_solid (digits_chars i))
  | r i => exact element_solid lang (by unfold Solid; decide) (digits_solid (digits_chars i))
  | num q => exact Numeral.solid (hf q (by simp [Fac.numbers]))
  | ypow i s =>
    exact ((element_solid lang (by unfold Solid; decide) (digits_solid (digits_chars i))).append
      (by unfold Solid; decide)).append (Numeral.solid (hf s (by simp [Fac.numbers])))

theorem op_solid (lang : Lang) (num : ℚ → Str) {o : Tok} (ho : o.isOp = true) : Solid (o.text lang num) := by
  cases o with
  | mul => intro c hc; rw [List.mem_singleton.1 hc]; decide
  | plus => intro c hc; rw [List.mem_singleton.1 hc]; decide
  | minus => intro c hc; rw [List.mem_singleton.1 hc]; decide
  | fac f => cases ho
  | cont => cases ho

/-- White space around a line of code is removed. -/
theorem indented_pad (pad : Str) (hpad : ∀ c ∈ pad, isSpace c = true) (post : Str)
    (hpost : ∀ c ∈ post, isSpace c = true) {a z : Char} {u : Str}
    (ha : isSpace a = false) (hz : isSpace z = false) (hu : ((a :: u).getLast?) = some z) :
    indented (pad ++ (a :: u) ++ post) = (pad.length, a :: u) := by
  unfold indented stripBy
  obtain ⟨w, hw⟩ := List.getLast?_eq_some_iff.1 hu
  have h1 : (pad ++ (a :: u) ++ post).takeWhile isSpace = pad := by
    rw [List.append_assoc, List.takeWhile_append_of_pos hpad, List.cons_append, List.takeWhile_cons,
      if_neg (by simp [ha]), List.append_nil]
  have h2 : (pad ++ (a :: u) ++ post).dropWhile isSpace = (a :: u) ++ post := by
    rw [List.append_assoc, List.dropWhile_append_of_pos hpad, List.cons_append, dropWhile_cons_false ha]
  have h3 : ∀ c ∈ post.reverse, isSpace c = true := fun c hc => hpost c (List.mem_reverse.1 hc)
  rw [h1, h2, hw, List.reverse_append, List.reverse_append, List.dropWhile_append_of_pos h3]
  simp only [List.reverse_singleton, List.singleton_append]
  rw [dropWhile_cons_false hz, List.reverse_cons, List.reverse_reverse]

/-- A line of code: indented by four, without comment, ending as `z`. -/
theorem preLines_code (b : Backend) {a z : Char} {u post : Str} (ha : isSpace a = false)
    (hz : isSpace z = false) (hu : ((a :: u).getLast?) = some z) (hpost : post = [] ∨ post = [' '])
    (hn : '\n' ∉ a :: u) (hc : commentSign b ∉ a :: u) (rest : Str) :
    preLines b ("    ".toList ++ (a :: u) ++ post ++ '\n' :: rest) = (4, a :: u) :: preLines b rest := by
  have hpost' : ∀ c ∈ post, c = ' ' := by rcases hpost with rfl | rfl <;> simp
  have hpad : ∀ c ∈ "    ".toList, c = ' ' := by decide
  have hmem : ∀ c, c ≠ ' ' → c ∉ a :: u → c ∉ "    ".toList ++ (a :: u) ++ post := by
    intro c h1 h2 hm
    rcases List.mem_append.1 hm with hm | hm
    · rcases List.mem_append.1 hm with hm | hm
      · exact h1 (hpad c hm)
      · exact h2 hm
    · exact h1 (hpost' c hm)
  rw [preLines_line b (hmem _ (by decide) hn), uncomment_plain b (hmem _ (by cases b <;> decide) hc),
    indented_pad _ (fun c h => by rw [hpad c h]; decide) _ (fun c h => by rw [hpost' c h]; decide) ha hz hu]
  rfl

theorem Solid.ends {s : Str} (h : Solid s) (h0 : s ≠ []) : ∃ a u z, s = a :: u ∧ isSpace a = false ∧
    isSpace z = false ∧ s.getLast? = some z ∧ z ≠ '&' := by
  cases s with
  | nil => exact absurd rfl h0
  | cons a u =>
    obtain ⟨z, hz⟩ : ∃ z, (a :: u).getLast? = some z := ⟨_, List.getLast?_eq_some_getLast (by simp)⟩
    have hm := h z (List.mem_of_getLast? hz)
    refine ⟨a, u, z, rfl, solid_space (h a (by simp)), solid_space hm, hz, ?_⟩
    rintro rfl
    exact absurd hm (by decide)

theorem preLines_solid (b : Backend) {s post : Str} (h : Solid s) (h0 : s ≠ [])
    (hpost : post = [] ∨ post = [' ']) (rest : Str) :
    preLines b ("    ".toList ++ s ++ post ++ '\n' :: rest) = (4, s) :: preLines b rest := by
  obtain ⟨a, u, z, rfl, ha, hz, hl, -⟩ := h.ends h0
  exact preLines_code b ha hz hl hpost (h.not_mem (by decide)) (h.not_mem (by cases b <;> decide)) rest

/-- Fortran statements of a text. -/
def stmts (s : Str) : List Str := joinLines ((preLines .fortran s).map (fun l => lower l.2))

theorem codeLines_one (b : Backend) (s : Str) : codeLines b [s] =
    if b = .fortran then (stmts s).map (fun l => (0, l)) else preLines b s := by
  rw [codeLines_eq, List.flatten_singleton]
  by_cases hb : b = .fortran
  · subst hb; rfl
  · rw [if_neg hb, if_neg hb]

theorem joinLines_plain {l : Str} (h : l.getLast? ≠ some '&') (ls : List Str) :
    joinLines (l :: ls) = l :: joinLines ls := by
  rw [joinLines]
  split
  · rename_i h1; rw [h1]
  · rename_i m ms h1; rw [if_neg h, h1]

theorem stmts_solid {s post : Str} (h : Solid s) (h0 : s ≠ []) (hpost : post = [] ∨ post = [' ']) (rest : Str) :
    stmts ("    ".toList ++ s ++ post ++ '\n' :: rest) = s :: stmts rest := by
  obtain ⟨a, u, z, -, -, -, hl, hz⟩ := h.ends h0
  unfold stmts
  rw [preLines_solid .fortran h h0 hpost, List.map_cons]
  dsimp only
  rw [h.lower, joinLines_plain (by rw [hl]; intro e; exact hz (Option.some.inj e))]

theorem stmts_cont {s : Str} (h : Solid s) (h0 : s ≠ []) {rest m : Str} {ms : List Str}
    (hrest : stmts rest = m :: ms) :
    stmts ("    ".toList ++ s ++ " & \n".toList ++ rest) = (s ++ ' ' :: m) :: ms := by
  obtain ⟨a, u, z, rfl, ha, hz, hl, -⟩ := h.ends h0
  have e : "    ".toList ++ (a :: u) ++ " & \n".toList ++ rest =
      "    ".toList ++ (a :: (u ++ [' ', '&'])) ++ [' '] ++ '\n' :: rest := by
    have : " & \n".toList = [' ', '&', ' ', '\n'] := by decide
    rw [this]
    simp only [List.append_assoc, List.cons_append, List.nil_append]
  have hl' : (a :: (u ++ [' ', '&'])).getLast? = some '&' := by
    rw [show a :: (u ++ [' ', '&']) = (a :: u ++ [' ']) ++ ['&'] by simp, List.getLast?_concat]
  have hmem : ∀ c, c ≠ ' ' → c ≠ '&' → solid c = false → c ∉ a :: (u ++ [' ', '&']) := by
    intro c h1 h2 h3 hm
    have hm : c ∈ (a :: u) ++ [' ', '&'] := hm
    rcases List.mem_append.1 hm with hm | hm
    · exact h.not_mem h3 hm
    · simp only [List.mem_cons, List.not_mem_nil, or_false] at hm
      rcases hm with hm | hm
      · exact h1 hm
      · exact h2 hm
  unfold stmts at hrest ⊢
  rw [e, preLines_code .fortran ha (z := '&') (by decide) hl' (.inr rfl) (hmem _ (by decide) (by decide) (by decide))
    (hmem _ (by decide) (by decide) (by decide)), List.map_cons, joinLines_cons _ hrest]
  dsimp only
  have el : lower (a :: (u ++ [' ', '&'])) = (a :: u) ++ [' ', '&'] := by
    rw [show a :: (u ++ [' ', '&']) = (a :: u) ++ [' ', '&'] from rfl, lower_append, h.lower]
    congr 1
  rw [el]
  have hl2 : ((a :: u) ++ [' ', '&']).getLast? = some '&' := hl'
  rw [if_pos hl2]
  congr 1
  rw [show (a :: u) ++ [' ', '&'] = ((a :: u) ++ [' ']) ++ ['&'] by simp, List.dropLast_concat]
  simp

/-- A continued assignment is one statement. -/
theorem stmts_tail {num : ℚ → Str} {w : ℚ → ℚ} {ts : List Tok} (h : TailShape ts)
    (hp : Printed num w (ts.flatMap Tok.numbers)) {post : Str} (hpost : post = [] ∨ post = [' ']) (rest : Str) :
    ∀ s : Str, Solid s → s ≠ [] →
    stmts ("    ".toList ++ s ++ rhsText .fortran num ts ++ post ++ '\n' :: rest) =
      (s ++ rhsFlat .fortran num ts) :: stmts rest := by
  induction h with
  | nil =>
    intro s hs h0
    simp only [rhsText, rhsFlat, List.map_nil, List.flatten_nil, List.append_nil]
    exact stmts_solid hs h0 hpost rest
  | @op o f ts ho h ih =>
    intro s hs h0
    have hf : Printed num w f.numbers :=
      fun q hq => hp q (by simp only [List.flatMap_cons, List.mem_append]; exact .inr (.inl hq))
    have ih := ih (fun q hq => hp q (by simp only [List.flatMap_cons, List.mem_append]; exact .inr (.inr hq)))
      (s ++ o.text .fortran num ++ f.text .fortran num)
      ((hs.append (op_solid _ num ho)).append (fac_solid _ f hf)) (by simp [h0])
    have e1 : rhsText .fortran num (o :: .fac f :: ts) =
      o.text .fortran num ++ (f.text .fortran num ++ rhsText .fortran num ts) := rfl
    have e2 : rhsFlat .fortran num (o :: .fac f :: ts) =
        o.text .fortran num ++ (f.text .fortran num ++ rhsFlat .fortran num ts) := by
      cases o <;> first | rfl | cases ho
    rw [e1, e2]
    simpa only [List.append_assoc] using ih
  | @cont o f ts ho h ih =>
    intro s hs h0
    have hf : Printed num w f.numbers :=
      fun q hq => hp q (by simp only [List.flatMap_cons, List.mem_append]; exact .inr (.inr (.inl hq)))
    have ih := ih (fun q hq => hp q (by
        simp only [List.flatMap_cons, List.mem_append]; exact .inr (.inr (.inr hq))))
      (o.text .fortran num ++ f.text .fortran num) ((op_solid _ num ho).append (fac_solid _ f hf))
      (by cases o <;> first | (intro h; cases h) | cases ho)
    have e1 : rhsText .fortran num (.cont :: o :: .fac f :: ts) =
      " & \n".toList ++ ("    ".toList ++ (o.text .fortran num ++ (f.text .fortran num ++
        rhsText .fortran num ts))) := by
      have : rhsText .fortran num (.cont :: o :: .fac f :: ts) = " & \n    ".toList ++
        (o.text .fortran num ++ (f.text .fortran num ++ rhsText .fortran num ts)) := rfl
      rw [this, show " & \n    ".toList = " & \n".toList ++ "    ".toList by decide, List.append_assoc]
    have e2 : rhsFlat .fortran num (.cont :: o :: .fac f :: ts) =
        ' ' :: (o.text .fortran num ++ (f.text .fortran num ++ rhsFlat .fortran num ts)) := by
      cases o <;> first | rfl | cases ho
    rw [e1, e2]
    have := stmts_cont hs h0 ih
    simpa only [List.append_assoc] using this

/-! ### Files -/

/-- The lines of code of a text, as they are read. -/
def code (lang : Lang) (s : Str) : List (Nat × Str) := codeLines lang.backend [s]

/-- The indentation that is read. -/
def Lang.indent : Lang → Nat
  | .python => 4
  | .fortran => 0

theorem code_python (s : Str) : code .python s = preLines .numba s := codeLines_one _ s

theorem code_fortran (s : Str) : code .fortran s = (stmts s).map (fun l => (0, l)) := codeLines_one _ s

/-- What is read of a line that is not continued. -/
def Lang.sight (lang : Lang) (l : Nat × Str) : Nat × Str :=
  match lang with
  | .python => l
  | .fortran => (0, lower l.2)

theorem code_append (lang : Lang) {x : Str} (hx : x = [] ∨ x.getLast? = some '\n')
    (hp : ∀ l ∈ preLines lang.backend x, (lower l.2).getLast? ≠ some '&') (y : Str) :
    code lang (x ++ y) = (preLines lang.backend x).map lang.sight ++ code lang y := by
  have e : preLines lang.backend (x ++ y) = preLines lang.backend x ++ preLines lang.backend y := by
    rcases hx with rfl | hx
    · rw [preLines_nil]; rfl
    · exact preLines_append _ hx y
  cases lang with
  | python =>
    rw [code_python, code_python]
    refine e.trans ?_
    congr 1
    exact (List.map_id _).symm
  | fortran =>
    rw [code_fortran, code_fortran]
    unfold stmts
    have e : preLines .fortran (x ++ y) = preLines .fortran x ++ preLines .fortran y := e
    rw [e, List.map_append]
    have hp : ∀ l ∈ preLines .fortran x, (lower l.2).getLast? ≠ some '&' := hp
    show _ = (preLines .fortran x).map Lang.fortran.sight ++ _
    generalize preLines .fortran x = ls at hp
    induction ls with
    | nil => rfl
    | cons l ls ih =>
      rw [List.map_cons, List.cons_append, joinLines_plain (hp l (by simp)), List.map_cons, List.map_cons,
        List.cons_append, ih (fun m hm => hp m (List.mem_cons_of_mem _ hm))]
      rfl

/-- A comment or an empty line is not code. -/
theorem code_skip (lang : Lang) {l : Str} (hn : '\n' ∉ l) (hl : (indented (uncomment lang.backend l)).2 = [])
    (rest : Str) : code lang (l ++ '\n' :: rest) = code lang rest := by
  have e : preLines lang.backend (l ++ '\n' :: rest) = preLines lang.backend rest := by
    rw [preLines_line _ hn]
    simp [hl]
  cases lang with
  | python => rw [code_python, code_python]; exact e
  | fortran =>
    rw [code_fortran, code_fortran]
    unfold stmts
    have e : preLines .fortran (l ++ '\n' :: rest) = preLines .fortran rest := e
    rw [e]

theorem code_comment (lang : Lang) {l : Str} (hn : '\n' ∉ l) (rest : Str) :
    code lang (commentSign lang.backend :: l ++ '\n' :: rest) = code lang rest := by
  refine code_skip lang ?_ ?_ rest
  · intro h
    rcases List.mem_cons.1 h with h | h
    · revert h; cases lang <;> decide
    · exact hn h
  · rw [uncomment_eq, List.takeWhile_cons, if_neg (by simp)]
    rfl

/-- What ends a line. -/
def EolOk (eol : Str) : Prop := eol = "\n".toList ∨ eol = " \n".toList

theorem EolOk.split {eol : Str} (h : EolOk eol) : ∃ post, (post = [] ∨ post = [' ']) ∧ eol = post ++ ['\n'] := by
  rcases h with rfl | rfl
  · exact ⟨[], .inl rfl, by decide⟩
  · exact ⟨[' '], .inr rfl, by decide⟩

theorem code_eol (lang : Lang) {eol : Str} (h : EolOk eol) (rest : Str) : code lang (eol ++ rest) = code lang rest := by
  obtain ⟨post, hpost, rfl⟩ := h.split
  rw [List.append_assoc]
  refine code_skip lang ?_ ?_ rest
  · rcases hpost with rfl | rfl <;> decide
  · rcases hpost with rfl | rfl <;> cases lang <;> decide

theorem NameOk.solid {s : Str} (h : NameOk s) : Solid s := by
  intro c hc
  rcases (h.2 c hc).2.2.2 with h | rfl
  · unfold PyBox.solid
    simp [h.1, h.2]
  · decide

theorem target_solid {κ : Type} [Place κ] [LawfulPlace κ] (lang : Lang) {array : Str} (ha : NameOk array) (k : κ) :
    Solid (element lang array (Place.text k) ++ ['=']) := by
  refine (element_solid lang ha.solid ?_).append (by unfold Solid; decide)
  intro c hc
  rcases LawfulPlace.chars k c hc with h | rfl
  · simp [solid, h]
  · decide

theorem rhs_python {num : ℚ → Str} {w : ℚ → ℚ} {ts : List Tok} (hp : Printed num w (ts.flatMap Tok.numbers))
    (hc : Tok.cont ∉ ts) : Solid (rhsText .python num ts) ∧ rhsFlat .python num ts = rhsText .python num ts := by
  induction ts with
  | nil => exact ⟨(by intro c hc; cases hc), rfl⟩
  | cons t ts ih =>
    obtain ⟨h1, h2⟩ := ih (fun q hq => hp q (by simp only [List.flatMap_cons, List.mem_append]; exact .inr hq))
      (fun h => hc (List.mem_cons_of_mem _ h))
    have hs : Solid (t.text .python num) := by
      cases t with
      | fac f => exact fac_solid .python f (fun q hq => hp q (by
          simp only [List.flatMap_cons, List.mem_append]; exact .inl hq))
      | cont => exact absurd (List.mem_cons_self ..) hc
      | mul => exact op_solid _ num rfl
      | plus => exact op_solid _ num rfl
      | minus => exact op_solid _ num rfl
    have hf : t.flat .python num = t.text .python num := by
      cases t with
      | cont => exact absurd (List.mem_cons_self ..) hc
      | _ => rfl
    have e1 : rhsText .python num (t :: ts) = t.text .python num ++ rhsText .python num ts := rfl
    have e2 : rhsFlat .python num (t :: ts) = t.flat .python num ++ rhsFlat .python num ts := rfl
    rw [e1, e2, h2, hf]
    exact ⟨hs.append h1, rfl⟩

theorem code_solid (lang : Lang) {num : ℚ → Str} {w : ℚ → ℚ} {ts : List Tok} (h : RhsShape ts)
    (hp : Printed num w (ts.flatMap Tok.numbers)) (hc : lang = .python → Tok.cont ∉ ts) {post : Str}
    (hpost : post = [] ∨ post = [' ']) (rest : Str) {s : Str} (hs : Solid s) (h0 : s ≠ []) :
    code lang ("    ".toList ++ s ++ rhsText lang num ts ++ post ++ '\n' :: rest) =
      (lang.indent, s ++ rhsFlat lang num ts) :: code lang rest := by
  cases lang with
  | python =>
    obtain ⟨h1, h2⟩ := rhs_python hp (hc rfl)
    rw [code_python, code_python, h2]
    have := preLines_solid .numba (hs.append h1) (by simp [h0]) hpost rest
    simpa only [List.append_assoc, Lang.indent] using this
  | fortran =>
    rw [code_fortran, code_fortran]
    have : stmts ("    ".toList ++ s ++ rhsText .fortran num ts ++ post ++ '\n' :: rest) =
        (s ++ rhsFlat .fortran num ts) :: stmts rest := by
      cases h with
      | nil => exact stmts_tail .nil hp hpost rest s hs h0
      | @fac f us h =>
        have hf : Printed num w f.numbers := fun q hq => hp q (by
          simp only [List.flatMap_cons, List.mem_append]; exact .inl hq)
        have := stmts_tail h (fun q hq => hp q (by
          simp only [List.flatMap_cons, List.mem_append]; exact .inr hq)) hpost rest (s ++ f.text .fortran num)
          (hs.append (fac_solid _ f hf)) (by simp [h0])
        have e1 : rhsText .fortran num (.fac f :: us) = f.text .fortran num ++ rhsText .fortran num us := rfl
        have e2 : rhsFlat .fortran num (.fac f :: us) = f.text .fortran num ++ rhsFlat .fortran num us := rfl
        rw [e1, e2]
        simpa only [List.append_assoc] using this
      | @sign o f us ho h =>
        exact stmts_tail (.op (by rcases ho with rfl | rfl <;> rfl) h) hp hpost rest s hs h0
    rw [this]
    rfl

theorem code_asg {κ : Type} [Place κ] [LawfulPlace κ] (lang : Lang) {array : Str} (ha : NameOk array)
    {num : ℚ → Str} {w : ℚ → ℚ} (k : κ) {ts : List Tok} (h : RhsShape ts)
    (hp : Printed num w (ts.flatMap Tok.numbers)) (hc : lang = .python → Tok.cont ∉ ts) {eol : Str}
    (he : EolOk eol) (rest : Str) :
    code lang ("    ".toList ++ element lang array (Place.text k) ++ '=' :: rhsText lang num ts ++ eol ++ rest) =
      (lang.indent, asgCode lang array num k ts) :: code lang rest := by
  obtain ⟨post, hpost, rfl⟩ := he.split
  have hts := target_solid lang ha k
  have e0 : "    ".toList ++ element lang array (Place.text k) ++ '=' :: rhsText lang num ts ++ (post ++ ['\n']) ++ rest =
      "    ".toList ++ (element lang array (Place.text k) ++ ['=']) ++ rhsText lang num ts ++ post ++ '\n' :: rest := by
    simp only [List.append_assoc, List.cons_append, List.nil_append]
  have e1 : asgCode lang array num k ts = (element lang array (Place.text k) ++ ['=']) ++ rhsFlat lang num ts := by
    unfold asgCode
    simp only [List.append_assoc, List.cons_append, List.nil_append]
  rw [e0, e1]
  exact code_solid lang h hp hc hpost rest hts (by simp)

/-! #### Programs -/

/-- The programs the generators write: well formed right-hand sides, no continuations and directives in
Python, operands from the arrays of the routine. -/
def LineOk {κ : Type} (lang : Lang) (inputs : List Str) : Line κ → Prop
  | .blank => True
  | .asg _ ts => RhsShape ts ∧ (lang = .python → Tok.cont ∉ ts) ∧ ∀ a ∈ ts.flatMap Tok.arrays, a ∈ inputs
  | .omp _ => lang = .fortran

/-- Lines of code of a line of the program. -/
def Line.code {κ : Type} [Place κ] (L : Layout) (num : ℚ → Str) : Line κ → List (Nat × Str)
  | .asg k ts => [(L.lang.indent, asgCode L.lang L.array num k ts)]
  | _ => []

theorem code_omp {shared : Str} (hs : '\n' ∉ shared) (d : Omp) (rest : Str) :
    code .fortran (d.text shared ++ rest) = code .fortran rest := by
  have h := fun {l : Str} (hn : '\n' ∉ l) (rest : Str) => code_comment .fortran hn rest
  cases d with
  | parallel =>
    have e : Omp.parallel.text shared ++ rest = commentSign .fortran :: "$OMP PARALLEL &".toList ++ '\n' ::
        (commentSign .fortran :: ("$OMP& SHARED(".toList ++ shared ++ ")  ".toList) ++ '\n' :: rest) := by
      have e1 : "!$OMP PARALLEL &\n!$OMP& SHARED(".toList = commentSign .fortran :: "$OMP PARALLEL &".toList ++ '\n' ::
        (commentSign .fortran :: "$OMP& SHARED(".toList) := by decide
      have e2 : ")  \n".toList = ")  ".toList ++ ['\n'] := by decide
      unfold Omp.text
      rw [e1, e2]
      simp only [List.append_assoc, List.cons_append, List.nil_append]
    rw [e]
    refine (h (by decide) _).trans (h ?_ rest)
    simp only [List.mem_append, not_or]
    exact ⟨⟨by decide, hs⟩, by decide⟩
  | single =>
    have e : Omp.single.text shared ++ rest = commentSign .fortran :: "$OMP SINGLE ".toList ++ '\n' :: rest := by
      rw [show Omp.single.text shared = commentSign .fortran :: "$OMP SINGLE ".toList ++ ['\n'] by
        show String.toList _ = _; decide]
      simp only [List.append_assoc, List.cons_append, List.nil_append]
    rw [e]
    exact h (by decide) rest
  | endSingle =>
    have e : Omp.endSingle.text shared ++ rest =
        commentSign .fortran :: "$OMP END SINGLE NOWAIT".toList ++ '\n' :: rest := by
      rw [show Omp.endSingle.text shared = commentSign .fortran :: "$OMP END SINGLE NOWAIT".toList ++ ['\n'] by
        show String.toList _ = _; decide]
      simp only [List.append_assoc, List.cons_append, List.nil_append]
    rw [e]
    exact h (by decide) rest
  | endParallel =>
    have e : Omp.endParallel.text shared ++ rest =
        commentSign .fortran :: "$OMP END PARALLEL ".toList ++ '\n' :: rest := by
      rw [show Omp.endParallel.text shared = commentSign .fortran :: "$OMP END PARALLEL ".toList ++ ['\n'] by
        show String.toList _ = _; decide]
      simp only [List.append_assoc, List.cons_append, List.nil_append]
    rw [e]
    exact h (by decide) rest

theorem code_body {κ : Type} [Place κ] [LawfulPlace κ] (L : Layout) (ha : NameOk L.array) (he : EolOk L.eol)
    (hs : '\n' ∉ L.shared) {num : ℚ → Str} {w : ℚ → ℚ} {inputs : List Str} (p : List (Line κ))
    (hp : ∀ l ∈ p, LineOk L.lang inputs l) (hn : Printed num w (p.flatMap Line.numbers)) (rest : Str) :
    code L.lang ((p.map (Line.text L num)).flatten ++ rest) = p.flatMap (Line.code L num) ++ code L.lang rest := by
  induction p with
  | nil => rfl
  | cons l p ih =>
    have ih := ih (fun m hm => hp m (List.mem_cons_of_mem _ hm)) (fun q hq => hn q (by
      simp only [List.flatMap_cons, List.mem_append]; exact .inr hq))
    have hl := hp l (by simp)
    have hq : Printed num w l.numbers := fun q hq => hn q (by
      simp only [List.flatMap_cons, List.mem_append]; exact .inl hq)
    rw [List.map_cons, List.flatten_cons, List.append_assoc, List.flatMap_cons, List.append_assoc, ← ih]
    cases l with
    | blank => exact code_eol _ he _
    | omp d =>
      have hl : L.lang = .fortran := hl
      have := code_omp hs d ((p.map (Line.text L num)).flatten ++ rest)
      rw [hl]
      exact this
    | asg k ts =>
      have := code_asg L.lang ha k hl.1 hq hl.2.1 he ((p.map (Line.text L num)).flatten ++ rest)
      exact this

/-- Reading the lines of a program gives statements that do what the program does. -/
theorem read_lines {κ : Type} [Place κ] [LawfulPlace κ] [DecidableEq κ] [Subscript κ] (L : Layout) (F : Frame)
    (hL : L.lang = F.lang) (hA : L.array = F.array) (ha : NameOk F.array) {num : ℚ → Str} {w : ℚ → ℚ}
    (p : List (Line κ)) (hp : ∀ l ∈ p, LineOk F.lang F.inputs l) (hn : Printed num w (p.flatMap Line.numbers))
    (env : Env) (a : κ → ℝ) :
    ((p.flatMap (Line.code L num)).mapM (readCmd (κ := κ) F)).map (fun q => runCmds F.lang env q a) =
      exec F.lang env (p.map (Line.renum w)) a := by
  induction p generalizing a with
  | nil => rfl
  | cons l p ih =>
    have ih := ih (fun m hm => hp m (List.mem_cons_of_mem _ hm)) (fun q hq => hn q (by
      simp only [List.flatMap_cons, List.mem_append]; exact .inr hq))
    have hl := hp l (by simp)
    have hq : Printed num w l.numbers := fun q hq => hn q (by
      simp only [List.flatMap_cons, List.mem_append]; exact .inl hq)
    cases l with
    | blank => exact ih a
    | omp d => exact ih a
    | asg k ts =>
      have hr := read_asg F ha k hl.1 hq F.lang.indent (by intro h; rw [h]; rfl)
      have e : (Line.asg k ts :: p).flatMap (Line.code L num) =
          (F.lang.indent, asgCode F.lang F.array num k ts) :: p.flatMap (Line.code L num) := by
        rw [List.flatMap_cons, Line.code, hL, hA]
        rfl
      rw [e, List.mapM_cons, hr, List.map_cons]
      show _ = exec F.lang env (.asg k (ts.map (Tok.renum w)) :: p.map (Line.renum w)) a
      rw [exec]
      rcases readRhs_eval F (w := w) hl.1 hl.2.2 hl.2.1 with ⟨x, h1, h2⟩ | ⟨h1, h2⟩
      · rw [h1, h2 env]
        dsimp only
        rw [← ih]
        cases (p.flatMap (Line.code L num)).mapM (readCmd (κ := κ) F) with
        | none => rfl
        | some q => rfl
      · rw [h1, h2 env]
        rfl

/-! #### Whole files -/

/-- The fixed text of a writer is the frame of the routine, followed by the statements `init`. -/
structure Matches (L : Layout) (F : Frame) (init : List (Nat × Str)) : Prop where
  lang : L.lang = F.lang
  array : L.array = F.array
  name : NameOk F.array
  eol : EolOk L.eol
  shared : '\n' ∉ L.shared
  topEnds : L.top.flatten.getLast? = some '\n'
  top : preLines L.lang.backend L.top.flatten = []
  headEnds : ∀ n m, (L.head (digits n) (digits m)).flatten.getLast? = some '\n'
  headPlain : ∀ n m, ∀ l ∈ preLines L.lang.backend (L.head (digits n) (digits m)).flatten,
    (lower l.2).getLast? ≠ some '&'
  head : ∀ n m, (preLines L.lang.backend (L.head (digits n) (digits m)).flatten).map L.lang.sight =
    F.before n m ++ init
  foot : code L.lang L.foot.flatten = F.after

theorem code_created (lang : Lang) {date : Str} (hd : '\n' ∉ date) (rest : Str) :
    code lang (createdAt lang date ++ rest) = code lang rest := by
  have e : createdAt lang date ++ rest = commentSign lang.backend :: (" File created at ".toList ++ date ++ [' ']) ++
      '\n' :: rest := by
    have e1 : " \n".toList = [' ', '\n'] := by decide
    cases lang with
    | python =>
      have e2 : "# File created at ".toList = commentSign Lang.python.backend :: " File created at ".toList := by decide
      unfold createdAt
      simp only [e1, e2, List.append_assoc, List.cons_append, List.nil_append]
    | fortran =>
      have e2 : "! File created at ".toList = commentSign Lang.fortran.backend :: " File created at ".toList := by decide
      unfold createdAt
      simp only [e1, e2, List.append_assoc, List.cons_append, List.nil_append]
  rw [e]
  refine code_comment lang ?_ rest
  simp only [List.mem_append, not_or]
  exact ⟨⟨by decide, hd⟩, by decide⟩

theorem code_file {κ : Type} [Place κ] [LawfulPlace κ] {L : Layout} {F : Frame} {init : List (Nat × Str)}
    (hM : Matches L F init) {num : ℚ → Str} {w : ℚ → ℚ} {date : Str} (hd : '\n' ∉ date) (n m : Nat)
    (p : List (Line κ)) (hp : ∀ l ∈ p, LineOk F.lang F.inputs l)
    (hn : Printed num w (p.flatMap Line.numbers)) :
    codeLines F.lang.backend [fileText L num date n m p] =
      F.before n m ++ (init ++ p.flatMap (Line.code L num) ++ F.after) := by
  rw [← hM.lang]
  show code L.lang _ = _
  unfold fileText
  simp only [List.append_assoc]
  rw [code_append L.lang (.inr hM.topEnds) (by rw [hM.top]; intro l hl; cases hl), hM.top, List.map_nil,
    List.nil_append, code_created L.lang hd,
    code_append L.lang (.inr (hM.headEnds n m)) (hM.headPlain n m), hM.head,
    code_body L (by rw [hM.array]; exact hM.name) hM.eol hM.shared p (by rw [hM.lang]; exact hp) hn, hM.foot]
  simp only [List.append_assoc]

theorem readFile_eq {κ : Type} [Place κ] [LawfulPlace κ] {L : Layout} {F : Frame} {init : List (Nat × Str)}
    (hM : Matches L F init) {num : ℚ → Str} {w : ℚ → ℚ} {date : Str} (hd : '\n' ∉ date) (n m : Nat)
    (p : List (Line κ)) (hp : ∀ l ∈ p, LineOk F.lang F.inputs l)
    (hn : Printed num w (p.flatMap Line.numbers)) :
    readFile (κ := κ) F n m (fileText L num date n m p) =
      (init ++ p.flatMap (Line.code L num)).mapM (readCmd F) := by
  unfold readFile
  rw [code_file hM hd n m p hp hn]
  dsimp only
  rw [List.drop_left, if_pos ⟨List.prefix_append _ _, List.suffix_append _ _⟩, List.length_append,
    Nat.add_sub_cancel, List.take_left]

theorem runCmds_append {κ : Type} [DecidableEq κ] [Subscript κ] (lang : Lang) (env : Env) (p q : List (Cmd κ)) :
    ∀ a, runCmds lang env (p ++ q) a = runCmds lang env q (runCmds lang env p a) := by
  induction p with
  | nil => intro a; rfl
  | cons c p ih =>
    intro a
    cases c with
    | fill e => exact ih _
    | asg k e => exact ih _

/-- Running the text of a generated file is running the token program, with the numbers as printed. -/
theorem runFile_eq {κ : Type} [Place κ] [LawfulPlace κ] [DecidableEq κ] [Subscript κ] {L : Layout} {F : Frame}
    {init : List (Nat × Str)} (hM : Matches L F init) {q0 : List (Cmd κ)} (h0 : init.mapM (readCmd F) = some q0)
    {num : ℚ → Str} {w : ℚ → ℚ} {date : Str} (hd : '\n' ∉ date) (n m : Nat)
    (p : List (Line κ)) (hp : ∀ l ∈ p, LineOk F.lang F.inputs l)
    (hn : Printed num w (p.flatMap Line.numbers)) (env : Env) (a : κ → ℝ) :
    runFile F n m (fileText L num date n m p) env a =
      exec F.lang env (p.map (Line.renum w)) (runCmds F.lang env q0 a) := by
  unfold runFile
  rw [readFile_eq hM hd n m p hp hn, List.mapM_append, h0,
    ← read_lines L F hM.lang hM.array hM.name p hp hn env]
  cases (p.flatMap (Line.code L num)).mapM (readCmd (κ := κ) F) with
  | none => rfl
  | some q => exact congrArg some (runCmds_append F.lang env q0 q a)

end PyBox
