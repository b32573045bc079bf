import Verif.Rate.Kinds
import Verif.Rate.Whole

/-!
# The whole Fortran rate file, read with kinds

As `Rate/Whole.lean`: the fixed program followed by one assignment for each entry of the rate table.
-/

namespace PyBox
namespace Rl

theorem kLex_mono : ∀ (n m : Nat) (s : Str) (ts : List KTk), n ≤ m → kLex n s = some ts →
    kLex m s = some ts := by
  intro n
  induction n with
  | zero => intro m s ts _ h; simp [kLex] at h
  | succ n ih =>
    intro m s ts hm h
    obtain ⟨m, rfl⟩ : ∃ m', m = m' + 1 := ⟨m - 1, by omega⟩
    have hm : n ≤ m := by omega
    cases s with
    | nil => rw [kLex] at h ⊢; exact h
    | cons a s =>
      have lift : ∀ (u : Str) (f : List KTk → List KTk), (kLex n u).map f = some ts →
          (kLex m u).map f = some ts := by
        intro u f hu
        obtain ⟨ts', h', he⟩ := Option.map_eq_some_iff.1 hu
        rw [ih m u ts' hm h', Option.map_some, he]
      rw [kLex] at h ⊢
      split at h
      · rename_i h1; rw [if_pos h1]; exact ih m s ts hm h
      · rename_i h1
        rw [if_neg h1]
        split at h
        · rename_i h2; rw [if_pos h2]; exact lift _ _ h
        · rename_i h2
          rw [if_neg h2]
          split at h
          · rename_i h3; rw [if_pos h3]; exact lift _ _ h
          · rename_i h3
            rw [if_neg h3]
            split at h
            · rename_i h4; rw [if_pos h4]; exact lift _ _ h
            · rename_i h4
              rw [if_neg h4]
              split at h
              · rename_i h5; rw [if_pos h5]; exact lift _ _ h
              · rename_i h5
                rw [if_neg h5]
                split at h
                · rename_i h6; rw [if_pos h6]; exact lift _ _ h
                · cases h

theorem kLex_symbol (n : Nat) {c : Char} (s : Str)
    (hc : c ∈ ['+', '-', '/', '(', ')', '[', ']', '=', ':', ',']) :
    kLex (n + 1) (c :: s) = (kLex n s).map (KTk.sym c :: ·) := by
  have h : isSpace c = false ∧ isDigit c = false ∧ isLetter c = false ∧ c ≠ '*' ∧ c ≠ '<' ∧
      c ∈ ['+', '-', '*', '/', '(', ')', '[', ']', '=', ':', ','] := by
    revert c; decide
  rw [kLex, if_neg (by simp [h.1]), if_neg (by simp [h.2.1]), if_neg (by simp [h.2.2.1]),
    if_neg (fun e => h.2.2.2.1 e.1), if_neg (fun e => h.2.2.2.2.1 e.1), if_pos h.2.2.2.2.2]

theorem kLex_rateLine (k : Nat) {t : Str} {ts : List KTk} (h : kLexLine t = some ts) :
    ∃ kd, kLexLine (bareLine .fortran k t) =
      some (.id "rate_values".toList :: .sym '(' :: .num k kd :: .sym ')' :: .sym '=' :: ts) := by
  have e2 : " =".toList = [' ', '='] := by decide
  have hfive : ∃ kd, ∀ n, t.length + 1 ≤ n → kLex (n + 6) (bareLine .fortran k t) =
      some (.id "rate_values".toList :: .sym '(' :: .num k kd :: .sym ')' :: .sym '=' :: ts) := by
    refine ⟨litKind (Nat.toDigits 10 k ++ ')' :: (" =".toList ++ t)), ?_⟩
    intro n hn
    have ht := kLex_mono _ n _ _ hn h
    have h1 : ∀ u : Str, ("rate_values".toList ++ '(' :: u).takeWhile isIdent = "rate_values".toList ∧
        ("rate_values".toList ++ '(' :: u).dropWhile isIdent = '(' :: u := by
      intro u
      have hall : ∀ c ∈ "rate_values".toList, isIdent c = true := by decide
      rw [List.takeWhile_append_of_pos hall, List.dropWhile_append_of_pos hall, List.takeWhile_cons,
        List.dropWhile_cons, if_neg (by decide), if_neg (by decide), List.append_nil]
      exact ⟨rfl, rfl⟩
    have hid : ∀ (u : Str) m, kLex (m + 1) ("rate_values".toList ++ '(' :: u) =
        (kLex m ('(' :: u)).map (KTk.id "rate_values".toList :: ·) := by
      intro u m
      obtain ⟨g1, g2⟩ := h1 u
      have hcons : "rate_values".toList ++ '(' :: u = 'r' :: ("ate_values".toList ++ '(' :: u) := rfl
      rw [hcons] at g1 g2 ⊢
      rw [kLex, if_neg (by decide), if_neg (by decide), if_pos (by decide), g1, g2]
    have hnum : ∀ (u : Str) m, kLex (m + 1) (Nat.toDigits 10 k ++ ')' :: u) =
        (kLex m (')' :: u)).map (KTk.num k (litKind (Nat.toDigits 10 k ++ ')' :: u)) :: ·) := by
      intro u m
      have hl := lexNum_digits .fortran k (c := ')') u (by decide) (by decide) (by decide)
      have hdig := isDigit_toDigits k
      have hpos := Nat.length_toDigits_pos (b := 10) (n := k)
      rcases hds : Nat.toDigits 10 k with - | ⟨d, ds⟩
      · rw [hds] at hpos; simp at hpos
      · rw [hds] at hl hdig
        have hd := hdig d (List.mem_cons_self ..)
        have hsp : isSpace d = false := by
          unfold isDigit at hd
          unfold isSpace
          simp only [Bool.and_eq_true, decide_eq_true_eq] at hd
          have h48 : '0'.toNat = 48 := rfl
          have h57 : '9'.toNat = 57 := rfl
          rw [h48, h57] at hd
          simp only [Bool.or_eq_false_iff, Bool.and_eq_false_iff, decide_eq_false_iff_not, beq_eq_false_iff_ne]
          omega
        rw [List.cons_append] at hl ⊢
        rw [kLex, if_neg (by simp [hsp]), if_pos hd, hl]
    have hopen : openOf .fortran = '(' := rfl
    have hclose : closeOf .fortran = ')' := rfl
    unfold bareLine
    rw [hopen, hclose]
    rw [hid, kLex_symbol _ _ (by decide), hnum, kLex_symbol _ _ (by decide), e2, List.cons_append, List.cons_append,
      kLex, if_pos (by decide), kLex_symbol _ _ (by decide), List.nil_append, ht]
    rfl
  obtain ⟨kd, hfive⟩ := hfive
  refine ⟨kd, ?_⟩
  have hlen : ∃ n, t.length + 1 ≤ n ∧ (bareLine .fortran k t).length + 1 = n + 6 := by
    refine ⟨"rate_values".toList.length + (Nat.toDigits 10 k).length + t.length - 1, ?_, ?_⟩
    · have : "rate_values".toList.length = 11 := by decide
      omega
    · have : "rate_values".toList.length = 11 := by decide
      unfold bareLine
      simp only [List.length_append, List.length_cons, e2, List.length_nil]
      omega
  obtain ⟨n, hn, he⟩ := hlen
  unfold kLexLine
  rw [he]
  exact hfive n hn

theorem kLine_rate (k : Nat) {t : Str} {e : KEx} (h : (kLexLine t).bind kExpr = some e) :
    kLine (bareLine .fortran k t) = some (⟨"rate_values".toList, some k⟩, e) := by
  obtain ⟨ts, h1, h2⟩ := Option.bind_eq_some_iff.1 h
  obtain ⟨kd, hk⟩ := kLex_rateLine k h1
  unfold kLine
  rw [hk, Option.bind_some, kAssign, if_pos ⟨rfl, rfl⟩, subscript_nat, h2]
  · rfl
  · intro h
    revert h
    decide

/-- A sealed text followed by lines that parse. -/
theorem kLines_append (ms : List (Nat × Str)) (q : List KStmt)
    (hq : ∀ m, ms.length < m → kLines m ms = some q) : ∀ (n : Nat) (ls : List (Nat × Str))
    (p : List KStmt), sealedLines .fortran n ls = true → kLines n ls = some p →
    ∀ m, n + ms.length ≤ m → kLines m (ls ++ ms) = some (p ++ q) := by
  intro n
  induction n with
  | zero => intro ls p _ h; simp [kLines] at h
  | succ n ih =>
    intro ls p hs h m hm
    obtain ⟨m, rfl⟩ : ∃ m', m = m' + 1 := ⟨m - 1, by omega⟩
    have hm' : n + ms.length ≤ m := by omega
    cases ls with
    | nil =>
      rw [kLines] at h
      rw [← Option.some.inj h]
      exact hq _ (by omega)
    | cons l ls =>
      rw [sealedLines] at hs
      rw [kLines] at h
      rw [List.cons_append, kLines]
      by_cases hif : "if ".toList.isPrefixOf l.2 = true
      · rw [if_pos hif] at h hs ⊢
        have hf : (fun m : Nat × Str => if Backend.fortran = .fortran then
          !(m.2 == "else".toList || m.2 == "end if".toList) else decide (l.1 < m.1)) = inBranch := by
          funext m
          rw [if_pos rfl]
          rfl
        dsimp only at hs
        rw [hf] at hs
        simp only [if_true] at hs
        generalize inBranch = f at h hs ⊢
        obtain ⟨⟨x, y⟩, hxy, h⟩ := Option.bind_eq_some_iff.1 h
        obtain ⟨t, ht, h⟩ := Option.bind_eq_some_iff.1 h
        rcases hd : ls.dropWhile f with - | ⟨e, ls'⟩
        · rw [hd] at hs; cases hs
        · obtain ⟨w1, w2⟩ := while_append f ls ms (by rw [hd]; simp)
          rw [hd] at h hs w2
          dsimp only at h hs
          rw [Bool.and_eq_true, Bool.not_eq_true', List.isEmpty_eq_false_iff] at hs
          obtain ⟨hne, hs⟩ := hs
          obtain ⟨v1, v2⟩ := while_append f ls' ms hne
          refine Option.bind_eq_some_iff.2 ⟨(x, y), hxy, Option.bind_eq_some_iff.2 ⟨t, ?_, ?_⟩⟩
          · rw [w1]; exact ht
          · rw [w2]
            dsimp only [List.cons_append]
            by_cases he : e.2 = "else".toList ∨ e.2 = "else:".toList
            · rw [if_pos he] at h ⊢
              obtain ⟨z, hz, h⟩ := Option.bind_eq_some_iff.1 h
              obtain ⟨rest, hr, h⟩ := Option.bind_eq_some_iff.1 h
              refine Option.bind_eq_some_iff.2 ⟨z, by rw [v1]; exact hz,
                Option.bind_eq_some_iff.2 ⟨rest ++ q, ?_, ?_⟩⟩
              · rw [v2, List.tail_append_of_ne_nil hne]
                exact ih _ rest hs hr m hm'
              · rw [← Option.some.inj h]
                rfl
            · rw [if_neg he] at h; cases h
      · rw [if_neg hif] at h hs ⊢
        rcases hdec : declaration l.2 with - | (- | s)
        · rw [hdec] at h
          dsimp only at h ⊢
          obtain ⟨⟨v, e⟩, hve, h⟩ := Option.bind_eq_some_iff.1 h
          obtain ⟨rest, hr, h⟩ := Option.bind_eq_some_iff.1 h
          refine Option.bind_eq_some_iff.2 ⟨(v, e), hve, Option.bind_eq_some_iff.2
            ⟨rest ++ q, ih _ rest hs hr m hm', ?_⟩⟩
          rw [← Option.some.inj h]
          rfl
        · rw [hdec] at h
          exact ih _ p hs h m hm'
        · rw [hdec] at h
          dsimp only at h ⊢
          obtain ⟨⟨v, e⟩, hve, h⟩ := Option.bind_eq_some_iff.1 h
          obtain ⟨rest, hr, h⟩ := Option.bind_eq_some_iff.1 h
          refine Option.bind_eq_some_iff.2 ⟨(v, e), hve, Option.bind_eq_some_iff.2
            ⟨rest ++ q, ih _ rest hs hr m hm', ?_⟩⟩
          rw [← Option.some.inj h]
          rfl

/-- Lines that are assignments. -/
theorem kLines_plain {α : Type*} (line : α → Nat × Str) (asg : α → Var × KEx) :
    ∀ (l : List α), (∀ a ∈ l, "if ".toList.isPrefixOf (line a).2 = false ∧
      declaration (line a).2 = none ∧ kLine (line a).2 = some (asg a)) →
    ∀ m, l.length < m → kLines m (l.map line) = some (l.map (fun a => .asg (asg a).1 (asg a).2)) := by
  intro l
  induction l with
  | nil =>
    intro _ m hm
    obtain ⟨m, rfl⟩ : ∃ m', m = m' + 1 := ⟨m - 1, by simp at hm; omega⟩
    rfl
  | cons a l ih =>
    intro h m hm
    obtain ⟨m, rfl⟩ : ∃ m', m = m' + 1 := ⟨m - 1, by rw [List.length_cons] at hm; omega⟩
    obtain ⟨h1, h2, h4⟩ := h a (List.mem_cons_self ..)
    rw [List.map_cons, kLines, if_neg (by rw [h1]; decide), h2]
    refine Option.bind_eq_some_iff.2 ⟨asg a, h4, Option.bind_eq_some_iff.2
      ⟨_, ih (fun x hx => h x (List.mem_cons_of_mem _ hx)) m (by rw [List.length_cons] at hm; omega), rfl⟩⟩

/-- The fixed text is read, and without its kinds it is the program of `Rate/Check.lean`. -/
theorem kRate_reads : kProgram fortranWrites = some kRateProgram ∧
    kRateProgram.map KStmt.erase = rateProgram .fortran := by
  have h : (kProgram fortranWrites).isSome = true ∧
      (kProgram fortranWrites).map (List.map KStmt.erase) = program .fortran fortranWrites := by
    decide +kernel
  obtain ⟨p, hp⟩ := Option.isSome_iff_exists.1 h.1
  have h2 := h.2
  unfold kRateProgram
  rw [hp] at h2 ⊢
  refine ⟨rfl, ?_⟩
  have h3 := rate_text_reads .fortran
  rw [show writesOf .fortran = fortranWrites from rfl, ← h2] at h3
  exact Option.some.inj h3

/-- The whole rate file, read with kinds. -/
theorem kFile_program (cores : Option Nat) (d : Dict Nat Str)
    (hd : ∀ p ∈ d, Spaceless p.2) (ex : Nat × Str → KEx) (hex : ∀ p ∈ d, kRead p.2 = some (ex p)) :
    kProgram (ratesFile .fortran cores d) =
      some (kRateProgram ++ d.map (fun p => .asg (Backend.fortran.rateVar p.1) (ex p))) := by
  have hplain : ∀ p ∈ d, PlainText p.2 := by
    intro p hp
    refine ⟨hd p hp, seen_char (b := .fortran) ?_⟩
    have h1 := congrArg (Option.map KEx.erase) (hex p hp)
    rw [kRead_erase, readExpr_eq] at h1
    obtain ⟨ts, h2, -⟩ := Option.bind_eq_some_iff.1 h1
    exact lex_chars .fortran _ _ ts h2
  have hseal : sealedLines .fortran ((codeLines .fortran (writesOf .fortran)).length + 1)
      (codeLines .fortran (writesOf .fortran)) = true := by
    have h := facts_sealed
    simp only [Bool.and_eq_true] at h
    have := h.2
    unfold sealedCheck at this
    simp only [Bool.and_eq_true] at this
    exact this.1.1.1
  unfold kProgram
  rw [codeLines_file .fortran cores d hplain]
  refine kLines_append _ _ ?_ _ _ _ hseal kRate_reads.1 _ (by rw [List.length_append]; omega)
  intro m hm
  have := kLines_plain (fun p : Nat × Str => (if Backend.fortran = .fortran then 0 else 4,
    bareLine .fortran (Backend.fortran.place p.1) (Backend.fortran.seen p.2)))
    (fun p => (Backend.fortran.rateVar p.1, ex p)) d ?_ m (by simpa using hm)
  · exact this
  · intro p hp
    dsimp only
    have hc : ∃ u, bareLine .fortran (Backend.fortran.place p.1) (Backend.fortran.seen p.2) = 'r' :: 'a' :: u :=
      ⟨_, rfl⟩
    obtain ⟨u, hu⟩ := hc
    refine ⟨by rw [hu]; rfl, by rw [hu]; rfl, ?_⟩
    exact kLine_rate _ (hex p hp)

end Rl
end PyBox
