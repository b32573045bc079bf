import Mathlib.Data.Nat.Digits.Defs
import Mathlib.Data.List.Induction
import Verif.Props.Parsing

/-!
# C08: which texts are numbers of reactions
-/

namespace PyBox

open Spec

namespace Spec

/-- Digit groups with single underscores between them. -/
def grouped : List Str → Str
  | [] => []
  | [g] => g
  | g :: gs => g ++ '_' :: grouped gs

/-- `s` is an integer literal of Python with the value `v`: white space, a sign or none, groups of decimal digits
separated by single underscores, white space. -/
def IsInteger (s : Str) (v : ℤ) : Prop :=
  ∃ (before after : Str) (sign : Str) (groups : List Str),
    s = before ++ (sign ++ grouped groups) ++ after ∧
    (∀ c ∈ before ++ after, isSpace c = true) ∧ groups ≠ [] ∧
    (∀ g ∈ groups, g ≠ [] ∧ ∀ c ∈ g, '0'.toNat ≤ c.toNat ∧ c.toNat ≤ '9'.toNat) ∧
    ((sign = ['-'] ∧ v = -((Nat.ofDigits 10 (groups.flatten.reverse.map fun c => c.toNat - 48) : ℕ) : ℤ)) ∨
      ((sign = [] ∨ sign = ['+']) ∧ v = ((Nat.ofDigits 10 (groups.flatten.reverse.map fun c => c.toNat - 48) : ℕ) : ℤ)))

end Spec

theorem isDigit_iff_nat (c : Char) : isDigit c = true ↔ '0'.toNat ≤ c.toNat ∧ c.toNat ≤ '9'.toNat := by
  unfold isDigit
  simp

theorem digitsVal_ofDigits (s : Str) : digitsVal s = Nat.ofDigits 10 (s.reverse.map fun c => c.toNat - 48) := by
  induction s using List.reverseRecOn with
  | nil => rfl
  | append_singleton s c ih =>
    rw [List.reverse_append, List.reverse_singleton, List.singleton_append, List.map_cons, Nat.ofDigits_cons, ← ih]
    unfold digitsVal
    rw [List.foldl_append]
    show 10 * _ + (c.toNat - 48) = _
    omega

theorem splitOn_grouped {gs : List Str} (hne : gs ≠ []) (h : ∀ g ∈ gs, '_' ∉ g) : splitOn '_' (grouped gs) = gs := by
  induction gs with
  | nil => exact absurd rfl hne
  | cons g gs ih =>
    cases gs with
    | nil => exact splitOn_of_not_mem _ _ (h g (by simp))
    | cons g' gs =>
      rw [grouped, splitOn_append _ _ _ (h g (by simp)), ih (by simp) fun x hx => h x (List.mem_cons_of_mem _ hx)]
      simp

theorem grouped_splitOn (s : Str) : grouped (splitOn '_' s) = s := by
  induction s with
  | nil => rfl
  | cons a s ih =>
    rw [splitOn]
    split
    · rename_i h
      subst h
      cases h' : splitOn '_' s with
      | nil => exact absurd h' (splitOn_ne_nil _ _)
      | cons w ws =>
        rw [h'] at ih
        rw [grouped, ih]
        · rfl
        · simp
    · cases h' : splitOn '_' s with
      | nil => exact absurd h' (splitOn_ne_nil _ _)
      | cons w ws =>
        rw [h'] at ih
        cases ws with
        | nil => 
          show a :: w = a :: s
          rw [← ih]; rfl
        | cons w' ws =>
          show grouped ((a :: w) :: w' :: ws) = a :: s
          rw [← ih]
          rfl

theorem stripBy_split (p : Char → Bool) (s : Str) : ∃ before after, s = before ++ stripBy p s ++ after ∧
    ∀ c ∈ before ++ after, p c = true := by
  refine ⟨s.takeWhile p, ((s.dropWhile p).reverse.takeWhile p).reverse, ?_, ?_⟩
  · unfold stripBy
    rw [List.append_assoc, ← List.reverse_append, List.takeWhile_append_dropWhile, List.reverse_reverse,
      List.takeWhile_append_dropWhile]
  · intro c hc
    rw [List.mem_append, List.mem_reverse] at hc
    rcases hc with hc | hc <;> exact List.mem_takeWhile_imp hc

theorem stripBy_around (p : Char → Bool) {before mid after : Str} (h : ∀ c ∈ before ++ after, p c = true)
    (hne : mid ≠ []) (h1 : p (mid.head hne) = false) (h2 : p (mid.getLast hne) = false) :
    stripBy p (before ++ mid ++ after) = mid := by
  have hb : ∀ c ∈ before, p c = true := fun c hc => h c (List.mem_append_left _ hc)
  have ha : ∀ c ∈ after.reverse, p c = true := fun c hc => h c (List.mem_append_right _ (List.mem_reverse.1 hc))
  unfold stripBy
  rw [List.append_assoc, List.dropWhile_append_of_pos hb]
  obtain ⟨a, t, rfl⟩ : ∃ a t, mid = a :: t := List.exists_cons_of_ne_nil hne
  rw [List.cons_append, List.dropWhile_cons_of_neg (by simpa using h1), ← List.cons_append, List.reverse_append,
    List.dropWhile_append_of_pos ha]
  obtain ⟨b, u, hu⟩ : ∃ b u, (a :: t).reverse = b :: u := List.exists_cons_of_ne_nil (by simp)
  have hb : b = (a :: t).getLast hne := by
    have : (a :: t).reverse.head? = some b := by rw [hu]; rfl
    rw [List.head?_reverse, List.getLast?_eq_some_getLast hne] at this
    exact (Option.some.inj this).symm
  rw [hu, List.dropWhile_cons_of_neg (by rw [hb, h2]; simp), ← hu, List.reverse_reverse]

theorem isSpace_digit {c : Char} (h : isDigit c = true) : isSpace c = false := isSpace_of_isDigit h

theorem grouped_ends {gs : List Str} (hne : gs ≠ []) (h : ∀ g ∈ gs, g ≠ [] ∧ ∀ c ∈ g, isDigit c = true) :
    (∃ c t, grouped gs = c :: t ∧ isDigit c = true) ∧ ∃ t c, grouped gs = t ++ [c] ∧ isDigit c = true := by
  induction gs with
  | nil => exact absurd rfl hne
  | cons g gs ih =>
    obtain ⟨h1, h2⟩ := h g (by simp)
    obtain ⟨c, t, rfl⟩ := List.exists_cons_of_ne_nil h1
    cases gs with
    | nil =>
      refine ⟨⟨c, t, rfl, h2 c (by simp)⟩, (c :: t).dropLast, (c :: t).getLast h1, ?_, h2 _ (List.getLast_mem h1)⟩
      exact (List.dropLast_append_getLast h1).symm
    | cons g' gs =>
      obtain ⟨-, u, d, hu, hd⟩ := ih (by simp) fun x hx => h x (List.mem_cons_of_mem _ hx)
      refine ⟨⟨c, t ++ '_' :: grouped (g' :: gs), rfl, h2 c (by simp)⟩, (c :: t) ++ '_' :: u, d, ?_, hd⟩
      show (c :: t) ++ '_' :: grouped (g' :: gs) = _
      rw [hu]
      simp

/-- What Python's `int` accepts and returns. -/
theorem pyInt_iff (s : Str) (v : ℤ) : pyInt s = .ok v ↔ IsInteger s v := by
  have hparts : ∀ ds : Str, ((splitOn '_' ds).all (fun w => !w.isEmpty && w.all isDigit) = true) ↔
      ∀ g ∈ splitOn '_' ds, g ≠ [] ∧ ∀ c ∈ g, isDigit c = true := by
    intro ds
    simp [List.all_eq_true]
  constructor
  · intro h
    obtain ⟨before, after, hs, hsp⟩ := stripBy_split isSpace s
    unfold pyInt at h
    dsimp only at h
    have key : ∀ (neg : Bool) (ds sign : Str), stripBy isSpace s = sign ++ ds →
        (sign = ['-'] ∧ neg = true ∨ (sign = [] ∨ sign = ['+']) ∧ neg = false) →
        (if (splitOn '_' ds).all (fun w => !w.isEmpty && w.all isDigit) = true then
          Except.ok (if neg = true then -(digitsVal (splitOn '_' ds).flatten : ℤ) else digitsVal (splitOn '_' ds).flatten)
        else .error .value : Except PyErr ℤ) = .ok v → IsInteger s v := by
      intro neg ds sign e hsign hv
      split at hv
      · rename_i hall
        injection hv with hv
        refine ⟨before, after, sign, splitOn '_' ds, by rw [grouped_splitOn, ← e]; exact hs, hsp, splitOn_ne_nil _ _,
          fun g hg => ⟨((hparts ds).1 hall g hg).1, fun c hc => (isDigit_iff_nat c).1 (((hparts ds).1 hall g hg).2 c hc)⟩, ?_⟩
        rw [← digitsVal_ofDigits, ← hv]
        rcases hsign with ⟨e1, rfl⟩ | ⟨e1, rfl⟩
        · exact .inl ⟨e1, rfl⟩
        · exact .inr ⟨e1, rfl⟩
      · cases hv
    split at h
    · rename_i r e
      exact key true r ['-'] e (.inl ⟨rfl, rfl⟩) h
    · rename_i r e
      exact key false r ['+'] e (.inr ⟨.inr rfl, rfl⟩) h
    · exact key false _ [] rfl (.inr ⟨.inl rfl, rfl⟩) h
  · rintro ⟨before, after, sign, groups, rfl, hsp, hne, hg, hv⟩
    have hg' : ∀ g ∈ groups, g ≠ [] ∧ ∀ c ∈ g, isDigit c = true := fun g hm =>
      ⟨(hg g hm).1, fun c hc => (isDigit_iff_nat c).2 ((hg g hm).2 c hc)⟩
    obtain ⟨⟨c, t, e1, d1⟩, u, d, e2, d2⟩ := grouped_ends hne hg'
    have hu : ∀ g ∈ groups, '_' ∉ g := fun g hm hc => by
      have := (hg' g hm).2 _ hc
      revert this
      decide
    have hall : (splitOn '_' (grouped groups)).all (fun w => !w.isEmpty && w.all isDigit) = true := by
      rw [hparts, splitOn_grouped hne hu]
      exact hg'
    have hmid : sign ++ grouped groups ≠ [] := by rw [e1]; simp
    have hlast : isSpace ((sign ++ grouped groups).getLast hmid) = false := by
      have : (sign ++ grouped groups).getLast hmid = d := by simp [e2]
      rw [this]
      exact isSpace_digit d2
    have hc : c ≠ '-' ∧ c ≠ '+' := by constructor <;> (rintro rfl; revert d1; decide)
    have hhead : isSpace ((sign ++ grouped groups).head hmid) = false := by
      rcases hv with ⟨rfl, -⟩ | ⟨rfl | rfl, -⟩
      · rfl
      · have : ([] ++ grouped groups).head hmid = c := by simp [e1]
        rw [this]
        exact isSpace_digit d1
      · rfl
    unfold pyInt
    dsimp only
    rw [stripBy_around isSpace hsp hmid hhead hlast]
    rcases hv with ⟨rfl, hv⟩ | ⟨rfl | rfl, hv⟩
    · show (if (splitOn '_' (grouped groups)).all (fun w => !w.isEmpty && w.all isDigit) = true then
        Except.ok (-(digitsVal (splitOn '_' (grouped groups)).flatten : ℤ)) else _) = _
      rw [if_pos hall, splitOn_grouped hne hu, hv, ← digitsVal_ofDigits]
    · rw [List.nil_append]
      split
      · rename_i r e
        rw [e1] at e
        injection e with e
        exact absurd e hc.1
      · rename_i r e
        rw [e1] at e
        injection e with e
        exact absurd e hc.2
      · dsimp only
        rw [if_pos hall, splitOn_grouped hne hu, hv, ← digitsVal_ofDigits]
        rfl
    · show (if (splitOn '_' (grouped groups)).all (fun w => !w.isEmpty && w.all isDigit) = true then
        Except.ok (digitsVal (splitOn '_' (grouped groups)).flatten : ℤ) else _) = _
      rw [if_pos hall, splitOn_grouped hne hu, hv, ← digitsVal_ofDigits]

/-- C08 with the number of reactions written out: a file is accepted with `n` reactions exactly if its last label, less
the points at its ends, is an integer literal of value `n` and the first `n` bodies exist and are well formed. -/
theorem C08_integer (text : Str) (n : ℤ) :
    (∃ m, extractMechanism text = .ok m ∧ m.equations = n) ↔
      ∃ l, (labelTexts text).getLast? = some l ∧ IsInteger (stripBy (· == '.') l) n ∧
        n.toNat ≤ (bodyTexts text).length ∧ ∀ b ∈ (bodyTexts text).take n.toNat, WellFormed b := by
  rw [C08_accepts_iff]
  simp only [pyInt_iff]

/-- C08: a negative number of reactions is accepted as long as no white space or sign is wrong, and gives no reactions. -/
theorem C08_negative {text : Str} {m : Mechanism} (h : extractMechanism text = .ok m) (hn : m.equations < 0) :
    m.tables.rate = [] := by
  have := C08_rate_count h
  rw [Int.toNat_of_nonpos hn.le] at this
  exact List.map_eq_nil_iff.1 this

example : IsInteger " -1_20	".toList (-120) :=
  ⟨[' '], ['	'], ['-'], ["1".toList, "20".toList], rfl, by decide, by decide, by decide, .inl ⟨rfl, by decide⟩⟩

example : ¬ ∃ v, IsInteger "1__2".toList v := by
  rintro ⟨v, hv⟩
  have := (pyInt_iff _ _).2 hv
  have h2 : pyInt "1__2".toList = .error .value := by decide +kernel
  rw [h2] at this
  cases this

/-- A file whose only label is `{-1.}` is read without error and has no reaction. -/
example : ∃ m, extractMechanism "{-1.}A=B:K;".toList = .ok m ∧ m.equations = -1 ∧ m.tables.rate = [] := by
  refine ⟨⟨build [], -1⟩, by decide +kernel, rfl, rfl⟩

end PyBox
