import Verif.Gen.Text
import Verif.Parse.Text
import Verif.Props.Bounds
import Mathlib.Data.Nat.Digits.Defs

/-!
# Length of the lines of the generated Fortran files

Fortran source in free form has at most 132 characters per line (Fortran 2008, 3.3.2.1), and the commands that
compile the generated files (`/repo/f2py/Gas_simulation_f2py.py` lines 157, 165, 173 and 183) do not change that.
The writers of tendencies and Jacobian start a continuation line once more than four (three) terms are on the line.
-/

namespace PyBox

namespace Spec

/-- Every line of a text has at most `n` characters. -/
def LinesWithin (n : ℕ) (text : Str) : Prop := ∀ l ∈ splitOn '\n' text, l.length ≤ n

end Spec

open Spec

/-- With `k` characters already on the first line, no line gets longer than `n`. -/
def fitFrom (n : ℕ) : ℕ → Str → Prop
  | k, [] => k ≤ n
  | k, c :: s => if c = '\n' then k ≤ n ∧ fitFrom n 0 s else fitFrom n (k + 1) s

/-- Number of characters on the last line. -/
def column : ℕ → Str → ℕ
  | k, [] => k
  | k, c :: s => if c = '\n' then column 0 s else column (k + 1) s

instance (n : ℕ) : ∀ (k : ℕ) (s : Str), Decidable (fitFrom n k s)
  | k, [] => inferInstanceAs (Decidable (k ≤ n))
  | k, c :: s =>
    have := instDecidableFitFrom n 0 s
    have := instDecidableFitFrom n (k + 1) s
    inferInstanceAs (Decidable (if c = '\n' then k ≤ n ∧ fitFrom n 0 s else fitFrom n (k + 1) s))

theorem fitFrom_iff (n : ℕ) : ∀ (s : Str) (k : ℕ), fitFrom n k s ↔
    ∃ l ls, splitOn '\n' s = l :: ls ∧ k + l.length ≤ n ∧ ∀ l' ∈ ls, l'.length ≤ n := by
  intro s
  induction s with
  | nil =>
    intro k
    simp [fitFrom, splitOn]
  | cons c s ih =>
    intro k
    unfold fitFrom splitOn
    by_cases hc : c = '\n'
    · rw [if_pos hc, if_pos hc, ih 0]
      constructor
      · rintro ⟨h1, l, ls, h2, h3, h4⟩
        refine ⟨[], _, rfl, by simpa using h1, ?_⟩
        rw [h2]
        intro l' hl'
        rcases List.mem_cons.1 hl' with rfl | h
        · omega
        · exact h4 _ h
      · rintro ⟨l, ls, h2, h3, h4⟩
        obtain ⟨rfl, rfl⟩ := List.cons.inj h2
        obtain ⟨l, ls, h⟩ := List.exists_cons_of_ne_nil (splitOn_ne_nil '\n' s)
        rw [h] at h4
        exact ⟨by simpa using h3, l, ls, h, by have := h4 l (by simp); omega, fun l' h' => h4 l' (by simp [h'])⟩
    · rw [if_neg hc, if_neg hc, ih (k + 1)]
      obtain ⟨l, ls, h⟩ := List.exists_cons_of_ne_nil (splitOn_ne_nil '\n' s)
      rw [h]
      constructor
      · rintro ⟨l', ls', h2, h3, h4⟩
        obtain ⟨rfl, rfl⟩ := List.cons.inj h2
        exact ⟨_, _, rfl, by simp only [List.length_cons]; omega, h4⟩
      · rintro ⟨l', ls', h2, h3, h4⟩
        obtain ⟨rfl, rfl⟩ := List.cons.inj h2
        exact ⟨_, _, rfl, by simp only [List.length_cons] at h3; omega, h4⟩

theorem linesWithin_iff (n : ℕ) (s : Str) : LinesWithin n s ↔ fitFrom n 0 s := by
  rw [fitFrom_iff]
  obtain ⟨l, ls, h⟩ := List.exists_cons_of_ne_nil (splitOn_ne_nil '\n' s)
  unfold LinesWithin
  rw [h]
  constructor
  · intro h'
    exact ⟨l, ls, rfl, by have := h' l (by simp); omega, fun l' hl => h' l' (by simp [hl])⟩
  · rintro ⟨l', ls', h2, h3, h4⟩
    obtain ⟨rfl, rfl⟩ := List.cons.inj h2
    intro l' hl'
    rcases List.mem_cons.1 hl' with rfl | h
    · omega
    · exact h4 _ h

theorem fitFrom_append (n : ℕ) : ∀ (a b : Str) (k : ℕ), fitFrom n k a → fitFrom n (column k a) b →
    fitFrom n k (a ++ b) := by
  intro a
  induction a with
  | nil => intro b k _ h; exact h
  | cons c a ih =>
    intro b k h1 h2
    unfold fitFrom at h1
    unfold column at h2
    rw [List.cons_append]
    unfold fitFrom
    split at h1
    · rename_i hc
      rw [if_pos hc] at h2 ⊢
      exact ⟨h1.1, ih _ _ h1.2 h2⟩
    · rename_i hc
      rw [if_neg hc] at h2 ⊢
      exact ih _ _ h1 h2

theorem column_append : ∀ (a b : Str) (k : ℕ), column k (a ++ b) = column (column k a) b := by
  intro a
  induction a with
  | nil => intro b k; rfl
  | cons c a ih =>
    intro b k
    by_cases hc : c = '\n'
    · simp only [List.cons_append, column, if_pos hc]
      exact ih _ _
    · simp only [List.cons_append, column, if_neg hc]
      exact ih _ _

theorem fitFrom_plain {n : ℕ} : ∀ {s : Str} {k : ℕ}, '\n' ∉ s → k + s.length ≤ n → fitFrom n k s := by
  intro s
  induction s with
  | nil => intro k _ h; exact h
  | cons c s ih =>
    intro k h1 h2
    unfold fitFrom
    rw [if_neg (fun h => h1 (by simp [h]))]
    exact ih (fun h => h1 (by simp [h])) (by simp only [List.length_cons] at h2; omega)

theorem column_plain : ∀ {s : Str} {k : ℕ}, '\n' ∉ s → column k s = k + s.length := by
  intro s
  induction s with
  | nil => intro k _; rfl
  | cons c s ih =>
    intro k h1
    unfold column
    rw [if_neg (fun h => h1 (by simp [h])), ih (fun h => h1 (by simp [h]))]
    simp only [List.length_cons]
    omega

/-- Written from column `k` on, the text stays within `n` characters per line and ends at most in column `m`. -/
def Step (n k : ℕ) (s : Str) (m : ℕ) : Prop := fitFrom n k s ∧ column k s ≤ m

instance (n k : ℕ) (s : Str) (m : ℕ) : Decidable (Step n k s m) := inferInstanceAs (Decidable (_ ∧ _))

theorem Step.append {n k m m' : ℕ} {a b : Str} (h1 : Step n k a m) (h2 : ∀ k' ≤ m, Step n k' b m') :
    Step n k (a ++ b) m' := by
  obtain ⟨h3, h4⟩ := h2 _ h1.2
  exact ⟨fitFrom_append n a b k h1.1 h3, by rw [column_append]; exact h4⟩

theorem Step.plain {n k m : ℕ} {s : Str} (h : '\n' ∉ s) (h1 : k + s.length ≤ n) (h2 : k + s.length ≤ m) : Step n k s m :=
  ⟨fitFrom_plain h h1, by rw [column_plain h]; exact h2⟩

theorem Step.nil {n k m : ℕ} (h1 : k ≤ n) (h2 : k ≤ m) : Step n k [] m := ⟨h1, h2⟩

/-- Text that ends its line. -/
theorem Step.ends {n k m : ℕ} {s : Str} (h : '\n' ∉ s) (h1 : k + s.length ≤ n) : Step n k (s ++ ['\n']) m := by
  refine Step.append (m := k + s.length) (Step.plain h h1 le_rfl) (fun k' hk => ⟨?_, ?_⟩)
  · simp only [fitFrom, if_pos]
    exact ⟨by omega, Nat.zero_le _⟩
  · simp [column]

theorem Step.flatten {n : ℕ} {l : List Str} (h : ∀ s ∈ l, Step n 0 s 0) : Step n 0 l.flatten 0 := by
  induction l with
  | nil => exact Step.nil (Nat.zero_le _) le_rfl
  | cons s l ih =>
    rw [List.flatten_cons]
    refine Step.append (h s (by simp)) (fun k hk => ?_)
    obtain rfl : k = 0 := by omega
    exact ih (fun s hs => h s (by simp [hs]))

theorem Step.append0 {n : ℕ} {a b : Str} (h1 : Step n 0 a 0) (h2 : Step n 0 b 0) : Step n 0 (a ++ b) 0 :=
  Step.append h1 (fun k hk => by obtain rfl : k = 0 := by omega
                                 exact h2)

theorem Step.mono {n k m m' : ℕ} {s : Str} (h : Step n k s m) (hm : m ≤ m') : Step n k s m' := ⟨h.1, h.2.trans hm⟩

/-! ### Tokens -/

theorem digits_le {i d : ℕ} (hd : 0 < d) (h : i < 10 ^ d) : (digits i).length ≤ d := Nat.toDigits_length 10 i d hd h

theorem digits_plain (i : ℕ) : '\n' ∉ digits i := by
  intro h
  have := Nat.isDigit_of_mem_toDigits (b := 10) (by norm_num) (by norm_num) h
  exact absurd this (by decide)

theorem element_plain {lang : Lang} {name place : Str} (h1 : '\n' ∉ name) (h2 : '\n' ∉ place) :
    '\n' ∉ element lang name place := by
  unfold element
  simp only [List.mem_append, List.mem_cons, List.not_mem_nil, or_false, not_or]
  refine ⟨h1, ?_, h2, ?_⟩ <;> cases lang <;> decide

theorem element_length {lang : Lang} {name place : Str} :
    (element lang name place).length = name.length + place.length + 2 := by
  simp [element]
  omega

theorem facText_plain {lang : Lang} {num : ℚ → Str} (hn : ∀ q, '\n' ∉ num q) (f : Fac) : '\n' ∉ f.text lang num := by
  cases f with
  | y i => exact element_plain (by decide) (digits_plain i)
  | ypow i s =>
    unfold Fac.text
    simp only [List.mem_append, not_or]
    exact ⟨⟨element_plain (by decide) (digits_plain i), by decide⟩, hn s⟩
  | r e => exact element_plain (by decide) (digits_plain e)
  | num q => exact hn q

theorem rhsText_append {lang : Lang} {num : ℚ → Str} (a b : List Tok) :
    rhsText lang num (a ++ b) = rhsText lang num a ++ rhsText lang num b := by
  simp [rhsText]

theorem rhsText_cons {lang : Lang} {num : ℚ → Str} (a : Tok) (b : List Tok) :
    rhsText lang num (a :: b) = a.text lang num ++ rhsText lang num b := by
  simp [rhsText]

theorem rhsText_plain {lang : Lang} {num : ℚ → Str} (hn : ∀ q, '\n' ∉ num q) : ∀ {ts : List Tok}, Tok.cont ∉ ts →
    '\n' ∉ rhsText lang num ts := by
  intro ts
  induction ts with
  | nil => intro _; simp [rhsText]
  | cons t ts ih =>
    intro h
    rw [rhsText_cons, List.mem_append, not_or]
    refine ⟨?_, ih (fun h' => h (by simp [h']))⟩
    cases t with
    | fac f => exact facText_plain hn f
    | cont => exact absurd (List.mem_cons_self ..) h
    | mul => show '\n' ∉ ['*']; decide
    | plus => show '\n' ∉ ['+']; decide
    | minus => show '\n' ∉ ['-']; decide

/-- Tokens without continuation. -/
theorem Step.toks {n k m : ℕ} {lang : Lang} {num : ℚ → Str} (hn : ∀ q, '\n' ∉ num q) {ts : List Tok}
    (hc : Tok.cont ∉ ts) (h1 : k + (rhsText lang num ts).length ≤ n) (h2 : k + (rhsText lang num ts).length ≤ m) :
    Step n k (rhsText lang num ts) m := Step.plain (rhsText_plain hn hc) h1 h2

/-- The continuation before a term. -/
theorem Step.cont {n k B T x limit flag : ℕ} {num : ℚ → Str} (h4 : 4 ≤ B)
    (hn : B + x + (limit + 1) * T + 3 ≤ n) (hf : flag ≤ limit + 1) (hk : k ≤ B + x + flag * T) :
    (contBefore limit flag).2 ≤ limit ∧
    Step n k (rhsText .fortran num (contBefore limit flag).1) (B + x + (contBefore limit flag).2 * T) := by
  unfold contBefore
  split
  · rename_i h
    obtain rfl : flag = limit + 1 := by omega
    refine ⟨Nat.zero_le _, ?_⟩
    have e : rhsText .fortran num [Tok.cont] = ([' ', '&', ' '] ++ ['\n']) ++ [' ', ' ', ' ', ' '] := by
      have h : " & \n    ".toList = [' ', '&', ' ', '\n', ' ', ' ', ' ', ' '] := by decide +kernel
      show " & \n    ".toList ++ [] = _
      rw [h]
      rfl
    show Step n k (rhsText .fortran num [Tok.cont]) (B + x + 0 * T)
    rw [e]
    refine Step.append (Step.ends (s := [' ', '&', ' ']) (m := 0) (by decide) ?_) (fun k' hk' => Step.plain (s := [' ', ' ', ' ', ' ']) (by decide) ?_ ?_)
    · show k + 3 ≤ n
      omega
    · show k' + 4 ≤ n
      omega
    · show k' + 4 ≤ _
      omega
  · rename_i h
    refine ⟨by dsimp only; omega, Step.nil ?_ hk⟩
    have : flag * T ≤ (limit + 1) * T := Nat.mul_le_mul_right _ hf
    omega

end PyBox
