import Verif.Rate.File
import Verif.Rate.Text
import Verif.Props.Parsing

/-!
# C30: one rate assignment per reaction
-/

namespace PyBox

/-! ### Specification: reading assignments back -/

/-- The two languages and their subscript brackets. -/
inductive Spec.RateLang where
  | python
  | fortran
  deriving DecidableEq

/-- Read `    rate_values[k] =expr `: the subscript and the text assigned to it. Anything else is not
an assignment to the rates. -/
def Spec.readRate (lang : Spec.RateLang) (line : Str) : Option (Nat × Str) :=
  let opening := if lang = .python then "rate_values[".toList else "rate_values(".toList
  let closing := if lang = .python then "] =".toList else ") =".toList
  let s := line.dropWhile (· == ' ')
  if opening.isPrefixOf s then
    let s := s.drop opening.length
    let ds := s.takeWhile isDigit
    let s := s.dropWhile isDigit
    if ds ≠ [] ∧ closing.isPrefixOf s then some (digitsVal ds, stripBy isSpace (s.drop closing.length))
    else none
  else none

/-- All assignments to the rates in a text, in order. -/
def Spec.readRates (lang : Spec.RateLang) (text : Str) : List (Nat × Str) :=
  (splitOn '\n' text).filterMap (Spec.readRate lang)

open Spec

/-! ### Text without white space -/

def Spaceless (s : Str) : Prop := ∀ c ∈ s, isSpace c = false

instance (s : Str) : Decidable (Spaceless s) := inferInstanceAs (Decidable (∀ c ∈ s, isSpace c = false))

theorem spaceless_replaceGo {old new : Str} (hn : Spaceless new) : ∀ (s : Str) (k : Nat), Spaceless s →
    Spaceless (replaceGo old new k s) := by
  intro s
  induction s with
  | nil => intro k _ c hc; cases k <;> simp [replaceGo] at hc
  | cons a s ih =>
    intro k hs
    have hs' : Spaceless s := fun c hc => hs c (List.mem_cons_of_mem _ hc)
    cases k with
    | succ k => rw [replaceGo]; exact ih k hs'
    | zero =>
      rw [replaceGo]
      split
      · intro c hc
        rcases List.mem_append.1 hc with hc | hc
        · exact hn c hc
        · exact ih _ hs' c hc
      · intro c hc
        rcases List.mem_cons.1 hc with rfl | hc
        · exact hs _ (List.mem_cons_self ..)
        · exact ih 0 hs' c hc

theorem spaceless_replaceAll {old new s : Str} (hn : Spaceless new) (hs : Spaceless s) :
    Spaceless (replaceAll old new s) := spaceless_replaceGo hn s 0 hs

theorem spaceless_mapLoop (ops : List (Str × Str)) (ho : ∀ op ∈ ops, Spaceless op.2) : ∀ s : Str,
    Spaceless s → Spaceless (mapLoop ops s) := by
  induction ops with
  | nil => intro s hs; exact hs
  | cons op ops ih =>
    intro s hs
    exact ih (fun o h => ho o (List.mem_cons_of_mem _ h)) _
      (spaceless_replaceAll (ho op (List.mem_cons_self ..)) hs)

theorem spaceless_mathLoop (ops : List (Str × Str)) (ho : ∀ op ∈ ops, Spaceless op.2) (s : Str)
    (hs : Spaceless s) : Spaceless (mathLoop ops s) := by
  unfold mathLoop
  have : ∀ (l : List (Str × Str)) (t : Str), (∀ op ∈ l, Spaceless op.2) → Spaceless t →
      Spaceless (l.foldl (fun _ op => replaceAll op.1 op.2 s) t) := by
    intro l
    induction l with
    | nil => intro t _ ht; exact ht
    | cons op l ih =>
      intro t hl _
      exact ih _ (fun o h => hl o (List.mem_cons_of_mem _ h))
        (spaceless_replaceAll (hl op (List.mem_cons_self ..)) hs)
  exact this ops s ho hs

theorem spaceless_pySet {s : Str} (hs : Spaceless s) (i : Option Nat) {c : Char}
    (hc : isSpace c = false) : Spaceless (pySet s i c) := by
  intro a ha
  unfold pySet at ha
  cases i <;> rcases List.mem_or_eq_of_mem_set ha with h | h
  · exact hs a h
  · rw [h]; exact hc
  · exact hs a h
  · rw [h]; exact hc

theorem spaceless_convertFortran (s : Str) (hs : Spaceless s) : Spaceless (convertFortran s) :=
  spaceless_mapLoop _ (by decide +kernel) _ (spaceless_mathLoop _ (by decide +kernel) s hs)

theorem spaceless_convertNumba (s : Str) (hs : Spaceless s) : Spaceless (convertNumba s) := by
  unfold convertNumba photoBrackets
  have h0 := spaceless_mapLoop mapListFull (by decide +kernel) _
    (spaceless_mathLoop mathListNumba (by decide +kernel) s hs)
  generalize mapLoop mapListFull (mathLoop mathListNumba s) = t at h0
  generalize photoPositions t = l
  have : ∀ (l : List Nat) (u : Str), Spaceless u → Spaceless (l.foldl (photoStep t) u) := by
    intro l
    induction l with
    | nil => intro u hu; exact hu
    | cons n l ih =>
      intro u hu
      exact ih _ (spaceless_pySet (spaceless_pySet hu _ (by decide)) _ (by decide))
  exact this l t h0

theorem spaceless_convertPy (s : Str) (hs : Spaceless s) : Spaceless (convertPy s) := by
  unfold convertPy
  have h0 := spaceless_replaceAll (old := [')']) (new := [']']) (by decide)
    (spaceless_replaceAll (old := ['(']) (new := ['[']) (by decide)
      (spaceless_mapLoop mapListPy (by decide +kernel) _
        (spaceless_mathLoop mathListPy (by decide +kernel) s hs)))
  simp only
  generalize replaceAll [')'] [']'] (replaceAll ['('] ['['] (mapLoop mapListPy (mathLoop mathListPy s))) = t
    at h0
  have : ∀ (l : List Str) (u : Str), Spaceless u → Spaceless (l.foldl restoreStep u) := by
    intro l
    induction l with
    | nil => intro u hu; exact hu
    | cons n l ih =>
      intro u hu
      refine ih _ ?_
      unfold restoreStep
      split
      · exact hu
      · exact spaceless_pySet (spaceless_pySet hu _ (by decide)) _ (by decide)
  exact this _ t h0

/-! ### Reading what was written -/

theorem splitOn_line {l : Str} (hl : '\n' ∉ l) (rest : Str) :
    splitOn '\n' (l ++ '\n' :: rest) = l :: splitOn '\n' rest := by
  induction l with
  | nil => simp [splitOn]
  | cons a l ih =>
    rw [List.mem_cons, not_or] at hl
    rw [List.cons_append, splitOn, if_neg (Ne.symm hl.1), ih hl.2]

/-- A whole line in front of a text. -/
theorem readRates_line (lang : RateLang) {l : Str} (hl : '\n' ∉ l) (rest : Str) :
    readRates lang (l ++ '\n' :: rest) = (readRate lang l).toList ++ readRates lang rest := by
  unfold readRates
  rw [splitOn_line hl, List.filterMap_cons]
  cases readRate lang l <;> rfl

theorem takeWhile_isDigit_toDigits (n : Nat) (c : Char) (hc : isDigit c = false) (t : Str) :
    (Nat.toDigits 10 n ++ c :: t).takeWhile isDigit = Nat.toDigits 10 n ∧
    (Nat.toDigits 10 n ++ c :: t).dropWhile isDigit = c :: t := by
  have hd := isDigit_toDigits n
  constructor
  · rw [List.takeWhile_append_of_pos hd, List.takeWhile_cons, if_neg (by simp [hc]), List.append_nil]
  · rw [List.dropWhile_append_of_pos hd, List.dropWhile_cons, if_neg (by simp [hc])]

theorem stripBy_spaceless {t : Str} (ht : Spaceless t) : stripBy isSpace (t ++ [' ']) = t := by
  unfold stripBy
  have h1 : ∀ (u : Str), Spaceless u → u.dropWhile isSpace = u := by
    intro u hu
    cases u with
    | nil => rfl
    | cons a u => rw [List.dropWhile_cons, if_neg (by simp [hu a (List.mem_cons_self ..)])]
  cases t with
  | nil => decide
  | cons a t =>
    have h2 : ((a :: t) ++ [' ']).dropWhile isSpace = (a :: t) ++ [' '] := by
      rw [List.cons_append, List.dropWhile_cons, if_neg (by simp [ht a (List.mem_cons_self ..)])]
    rw [h2, List.reverse_append]
    have h3 : ([' '].reverse ++ (a :: t).reverse).dropWhile isSpace = (a :: t).reverse := by
      rw [List.reverse_singleton, List.singleton_append, List.dropWhile_cons, if_pos (by decide)]
      exact h1 _ (fun c hc => ht c (List.mem_reverse.1 hc))
    rw [h3, List.reverse_reverse]

theorem readRate_python (k : Nat) {t : Str} (ht : Spaceless t) :
    readRate .python ("    rate_values[".toList ++ Nat.toDigits 10 k ++ "] =".toList ++ t ++ [' ']) =
      some (k, t) := by
  have e : "    rate_values[".toList = ' ' :: ' ' :: ' ' :: ' ' :: "rate_values[".toList := by decide
  have e2 : "] =".toList = ']' :: " =".toList := by decide
  unfold readRate
  rw [if_pos rfl, if_pos rfl, e]
  simp only [List.cons_append, List.dropWhile_cons, beq_self_eq_true, if_true]
  have hdw : ∀ u : Str, ("rate_values[".toList ++ u).dropWhile (· == ' ') = "rate_values[".toList ++ u := by
    intro u; rfl
  simp only [List.append_assoc]
  rw [hdw]
  have hp : ∀ u : Str, ("rate_values[".toList).isPrefixOf ("rate_values[".toList ++ u) = true := by
    intro u; exact List.isPrefixOf_iff_prefix.2 (List.prefix_append _ _)
  rw [if_pos (hp _), List.drop_left, e2, List.cons_append]
  obtain ⟨h1, h2⟩ := takeWhile_isDigit_toDigits k ']' (by decide) (" =".toList ++ (t ++ [' ']))
  rw [h1, h2]
  have hne : Nat.toDigits 10 k ≠ [] := by
    intro h
    have := Nat.length_toDigits_pos (b := 10) (n := k)
    rw [h] at this
    simp at this
  rw [if_pos ⟨hne, by rw [← List.cons_append, ← e2]; exact List.isPrefixOf_iff_prefix.2 (List.prefix_append _ _)⟩,
    digitsVal_toDigits]
  rw [← List.cons_append, ← e2, List.drop_left, stripBy_spaceless ht]

theorem readRate_fortran (k : Nat) {t : Str} (ht : Spaceless t) :
    readRate .fortran ("    rate_values(".toList ++ Nat.toDigits 10 k ++ ") =".toList ++ t ++ [' ']) =
      some (k, t) := by
  have e : "    rate_values(".toList = ' ' :: ' ' :: ' ' :: ' ' :: "rate_values(".toList := by decide
  have e2 : ") =".toList = ')' :: " =".toList := by decide
  unfold readRate
  rw [if_neg (show RateLang.fortran ≠ .python by decide), if_neg (show RateLang.fortran ≠ .python by decide), e]
  simp only [List.cons_append, List.dropWhile_cons, beq_self_eq_true, if_true]
  have hdw : ∀ u : Str, ("rate_values(".toList ++ u).dropWhile (· == ' ') = "rate_values(".toList ++ u := by
    intro u; rfl
  simp only [List.append_assoc]
  rw [hdw]
  have hp : ∀ u : Str, ("rate_values(".toList).isPrefixOf ("rate_values(".toList ++ u) = true := by
    intro u; exact List.isPrefixOf_iff_prefix.2 (List.prefix_append _ _)
  rw [if_pos (hp _), List.drop_left, e2, List.cons_append]
  obtain ⟨h1, h2⟩ := takeWhile_isDigit_toDigits k ')' (by decide) (" =".toList ++ (t ++ [' ']))
  rw [h1, h2]
  have hne : Nat.toDigits 10 k ≠ [] := by
    intro h
    have := Nat.length_toDigits_pos (b := 10) (n := k)
    rw [h] at this
    simp at this
  rw [if_pos ⟨hne, by rw [← List.cons_append, ← e2]; exact List.isPrefixOf_iff_prefix.2 (List.prefix_append _ _)⟩,
    digitsVal_toDigits]
  rw [← List.cons_append, ← e2, List.drop_left, stripBy_spaceless ht]

theorem spaceless_newline {t : Str} (ht : Spaceless t) : '\n' ∉ t := by
  intro h
  have := ht _ h
  exact absurd this (by decide)

theorem toDigits_newline (k : Nat) : '\n' ∉ Nat.toDigits 10 k := by
  intro h
  exact absurd (isDigit_toDigits k _ h) (by decide)

theorem readRates_rateLinePy (p : Nat × Str) (hp : Spaceless p.2) (rest : Str) :
    readRates .python (rateLinePy p ++ rest) = p :: readRates .python rest := by
  have e : rateLinePy p ++ rest = ("    rate_values[".toList ++ Nat.toDigits 10 p.1 ++ "] =".toList ++ p.2 ++
      [' ']) ++ '\n' :: rest := by
    unfold rateLinePy
    have : " \n".toList = [' ', '\n'] := by decide
    rw [this]
    simp only [List.append_assoc, List.cons_append, List.nil_append]
  rw [e, readRates_line, readRate_python _ hp]
  · rfl
  · simp only [List.mem_append, not_or]
    exact ⟨⟨⟨⟨by decide, toDigits_newline _⟩, by decide⟩, spaceless_newline hp⟩, by decide⟩

theorem readRates_rateLineF (p : Nat × Str) (hp : Spaceless p.2) (rest : Str) :
    readRates .fortran (rateLineF p ++ rest) = (p.1 + 1, p.2) :: readRates .fortran rest := by
  have e : rateLineF p ++ rest = ("    rate_values(".toList ++ Nat.toDigits 10 (p.1 + 1) ++ ") =".toList ++
      p.2 ++ [' ']) ++ '\n' :: rest := by
    unfold rateLineF
    have : " \n".toList = [' ', '\n'] := by decide
    rw [this]
    simp only [List.append_assoc, List.cons_append, List.nil_append]
  rw [e, readRates_line, readRate_fortran _ hp]
  · rfl
  · simp only [List.mem_append, not_or]
    exact ⟨⟨⟨⟨by decide, toDigits_newline _⟩, by decide⟩, spaceless_newline hp⟩, by decide⟩

theorem readRates_writeRatesPy (d : Dict Nat Str) (hd : ∀ p ∈ d, Spaceless p.2) :
    readRates .python (writeRatesPy d) = d := by
  unfold writeRatesPy
  induction d with
  | nil => decide
  | cons p d ih =>
    rw [List.map_cons, List.flatten_cons, List.append_assoc,
      readRates_rateLinePy p (hd p (List.mem_cons_self ..)),
      ih (fun q hq => hd q (List.mem_cons_of_mem _ hq))]

/-- Directive lines are not assignments. -/
theorem readRates_omp (bs : List Nat) (k : Nat) (rest : Str) :
    readRates .fortran (ompTextBefore bs k ++ rest) = readRates .fortran rest := by
  have hline : ∀ (l : Str), '\n' ∉ l → readRate .fortran l = none → ∀ rest,
      readRates .fortran (l ++ '\n' :: rest) = readRates .fortran rest := by
    intro l h1 h2 rest
    rw [readRates_line _ h1, h2]
    rfl
  have h1 : ∀ rest : Str, readRates .fortran
      ("!$OMP PARALLEL &\n!$OMP& SHARED(rate_values, J)  \n!$OMP SINGLE \n".toList ++ rest) =
      readRates .fortran rest := by
    intro rest
    have e : "!$OMP PARALLEL &\n!$OMP& SHARED(rate_values, J)  \n!$OMP SINGLE \n".toList ++ rest =
      "!$OMP PARALLEL &".toList ++ '\n' :: ("!$OMP& SHARED(rate_values, J)  ".toList ++ '\n' ::
        ("!$OMP SINGLE ".toList ++ '\n' :: rest)) := by
      have : "!$OMP PARALLEL &\n!$OMP& SHARED(rate_values, J)  \n!$OMP SINGLE \n".toList =
        "!$OMP PARALLEL &".toList ++ '\n' :: ("!$OMP& SHARED(rate_values, J)  ".toList ++ '\n' ::
        ("!$OMP SINGLE ".toList ++ ['\n'])) := by decide +kernel
      rw [this]
      simp only [List.append_assoc, List.cons_append, List.nil_append]
    rw [e, hline _ (by decide) (by decide), hline _ (by decide) (by decide),
      hline _ (by decide) (by decide)]
  have h2 : ∀ rest : Str, readRates .fortran ("!$OMP END SINGLE NOWAIT \n!$OMP SINGLE \n".toList ++ rest) =
      readRates .fortran rest := by
    intro rest
    have e : "!$OMP END SINGLE NOWAIT \n!$OMP SINGLE \n".toList ++ rest =
      "!$OMP END SINGLE NOWAIT ".toList ++ '\n' :: ("!$OMP SINGLE ".toList ++ '\n' :: rest) := by
      have : "!$OMP END SINGLE NOWAIT \n!$OMP SINGLE \n".toList =
        "!$OMP END SINGLE NOWAIT ".toList ++ '\n' :: ("!$OMP SINGLE ".toList ++ ['\n']) := by
        decide +kernel
      rw [this]
      simp only [List.append_assoc, List.cons_append, List.nil_append]
    rw [e, hline _ (by decide) (by decide), hline _ (by decide) (by decide)]
  unfold ompTextBefore
  split <;> split <;> simp only [List.append_assoc, List.nil_append]
  · rw [h1, h2]
  · rw [h1]
  · rw [h2]

theorem readRates_writeRatesF (d : Dict Nat Str) (hd : ∀ p ∈ d, Spaceless p.2) (cores : Option Nat) :
    readRates .fortran (writeRatesF d cores) = d.map (fun p => (p.1 + 1, p.2)) := by
  unfold writeRatesF
  cases cores with
  | none =>
    dsimp only
    induction d with
    | nil => decide
    | cons p d ih =>
      rw [List.map_cons, List.flatten_cons, List.append_assoc,
        readRates_rateLineF p (hd p (List.mem_cons_self ..)),
        ih (fun q hq => hd q (List.mem_cons_of_mem _ hq)), List.map_cons]
  | some c =>
    dsimp only
    generalize breakList d.length c = bs
    have : ∀ (d : Dict Nat Str) (n : Nat), (∀ p ∈ d, Spaceless p.2) →
        readRates .fortran (((d.zipIdx n).map (fun x => ompTextBefore bs x.2 ++ rateLineF x.1)).flatten ++
          "!$OMP END SINGLE NOWAIT \n!$OMP END PARALLEL \n".toList ++ "\nend subroutine\n".toList) =
        d.map (fun p => (p.1 + 1, p.2)) := by
      intro d
      induction d with
      | nil => intro n _; rw [List.zipIdx_nil, List.map_nil, List.flatten_nil]; decide
      | cons p d ih =>
        intro n hd
        have := ih (n + 1) (fun q hq => hd q (List.mem_cons_of_mem _ hq))
        simp only [List.zipIdx_cons, List.map_cons, List.flatten_cons, List.append_assoc] at this ⊢
        rw [readRates_omp, readRates_rateLineF p (hd p (List.mem_cons_self ..)), this]
    exact this d 0 hd

/-! ### C30 -/

/-- Every reaction `k` of `qs` is assigned exactly once, in order and at subscript `k + first`, the
converted text of its own rate, and nothing else is assigned. -/
def Spec.OneRateEach (lang : RateLang) (first : Nat) (convert : Str → Str) (qs : List RawEqn) (text : Str) :
    Prop :=
  readRates lang text = qs.mapIdx (fun k q => (k + first, convert q.rate))

theorem rate_table {text : Str} {m : Mechanism} (h : extractMechanism text = .ok m) {qs : List RawEqn}
    (hq : Reads text m.equations.toNat qs) : m.tables.rate = qs.mapIdx (fun k q => (k, q.rate)) := by
  obtain ⟨hb, _⟩ := extract_tables h hq
  have hk := keys_build_rate qs
  have hlen : (build qs).rate.length = qs.length := by
    have := congrArg List.length hk
    simpa [Dict.keys] using this
  rw [hb]
  apply List.ext_getElem
  · rw [List.length_mapIdx, hlen]
  · intro i h1 h2
    have hi : i < qs.length := by rwa [hlen] at h1
    rw [List.getElem_mapIdx]
    have hki : ((build qs).rate[i]).1 = i := by
      have : (build qs).rate.keys[i]'(by simpa [Dict.keys] using h1) = i := by simp [hk]
      simpa [Dict.keys] using this
    have hnd : (build qs).rate.keys.Nodup := by rw [hk]; exact List.nodup_range
    have hmem : ((build qs).rate[i]) ∈ (build qs).rate := List.getElem_mem _
    have hg := Dict.get?_eq_some_of_mem hnd (k := ((build qs).rate[i]).1) (v := ((build qs).rate[i]).2) hmem
    rw [hki, get?_build_rate, List.getElem?_eq_getElem hi] at hg
    injection hg with hg
    exact Prod.ext hki hg.symm

theorem rates_spaceless {text : Str} {n : Nat} {qs : List RawEqn} (hq : Reads text n qs) :
    ∀ q ∈ qs, Spaceless q.rate := by
  intro q hqm
  have hm : Except.ok q ∈ ((bodyTexts text).take n).map parseEqn := by
    rw [hq.2]; exact List.mem_map_of_mem hqm
  obtain ⟨body, _, hb⟩ := List.mem_map.1 hm
  obtain ⟨l, r, rate, -, -, -, -, -, rfl⟩ := (parseEqn_ok_iff body q).1 hb
  intro c hc
  simp only [removeSpace_eq, List.mem_filter] at hc
  simpa using hc.2

theorem map_mapIdx_eq {α β γ : Type*} (g : β → γ) (f : Nat → α → β) (l : List α) :
    (l.mapIdx f).map g = l.mapIdx (fun k a => g (f k a)) := by
  apply List.ext_getElem
  · simp
  · intro i h1 h2
    simp

theorem convertTable_mapIdx (f : Str → Str) (qs : List RawEqn) :
    convertTable f (qs.mapIdx (fun k q => (k, q.rate))) = qs.mapIdx (fun k q => (k, f q.rate)) := by
  unfold convertTable
  rw [map_mapIdx_eq]

theorem spaceless_table {qs : List RawEqn} (hs : ∀ q ∈ qs, Spaceless q.rate) {f : Str → Str}
    (hf : ∀ s, Spaceless s → Spaceless (f s)) :
    ∀ p ∈ (qs.mapIdx (fun k q => (k, f q.rate)) : List (Nat × Str)), Spaceless p.2 := by
  intro p hp
  rw [List.mem_mapIdx] at hp
  obtain ⟨i, hi, rfl⟩ := hp
  exact hf _ (hs _ (List.getElem_mem _))

/-- **C30**. For every file the parser accepts, the plain Python, numba and Fortran rate files assign
every reaction its own converted rate expression, once each; also with OpenMP directives for any number
of cores, and however many times the table went through the Fortran converter before (the drivers send
it through twice). -/
theorem C30_one_assignment {text : Str} {m : Mechanism} (h : extractMechanism text = .ok m)
    {qs : List RawEqn} (hq : Reads text m.equations.toNat qs) (cores : Option Nat) (times : Nat) :
    OneRateEach .python 0 convertPy qs (writeRatesPy (convertTable convertPy m.tables.rate)) ∧
    OneRateEach .python 0 convertNumba qs (writeRatesPy (convertTable convertNumba m.tables.rate)) ∧
    OneRateEach .fortran 1 (convertFortran^[times]) qs
      (writeRatesF ((convertTable convertFortran)^[times] m.tables.rate) cores) := by
  have hs := rates_spaceless hq
  rw [rate_table h hq]
  refine ⟨?_, ?_, ?_⟩
  · rw [convertTable_mapIdx]
    exact readRates_writeRatesPy _ (spaceless_table hs spaceless_convertPy)
  · rw [convertTable_mapIdx]
    exact readRates_writeRatesPy _ (spaceless_table hs spaceless_convertNumba)
  · have hf : ∀ s, Spaceless s → Spaceless (convertFortran^[times] s) := by
      induction times with
      | zero => intro s hs; exact hs
      | succ t ih =>
        intro s hs
        rw [Function.iterate_succ_apply']
        exact spaceless_convertFortran _ (ih s hs)
    have hit : (convertTable convertFortran)^[times] (qs.mapIdx (fun k q => (k, q.rate))) =
        qs.mapIdx (fun k q => (k, convertFortran^[times] q.rate)) := by
      clear hf
      induction times with
      | zero => rfl
      | succ t ih =>
        rw [Function.iterate_succ_apply', ih]
        unfold convertTable
        rw [map_mapIdx_eq]
        refine congrArg (fun f => qs.mapIdx f) ?_
        funext k q
        rw [Function.iterate_succ_apply']
    rw [hit]
    unfold OneRateEach
    rw [readRates_writeRatesF _ (spaceless_table hs hf), map_mapIdx_eq]

/-- The sample file meets the hypotheses; its rate lines, read back. -/
example : ∃ m, extractMechanism sampleText = .ok m ∧ Reads sampleText m.equations.toNat sampleReactions ∧
    readRates .fortran (writeRatesF (convertTable convertFortran m.tables.rate) (some 4)) =
      [(1, "1.4E-12*EXP(-1310/TEMP)".toList), (2, "J(4)".toList), (3, "KMT".toList)] :=
  ⟨_, sample_parses, sample_reads, by decide +kernel⟩

end PyBox
