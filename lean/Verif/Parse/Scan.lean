import Verif.Parse.Model
import Mathlib.Tactic.Linarith

/-!
# Brace-delimited text: the two regular expressions of lines 88 and 128

`scan o c none s` is a direct description of "the texts between an `o` and the next `c`".
-/

namespace PyBox

/-- Texts between an `o` and the next following `c`, left to right, without overlap.
`some acc`: an `o` has been seen and `acc` read since. -/
def scan (o c : Char) : Option Str → Str → List Str
  | _, [] => []
  | none, a :: s => if a = o then scan o c (some []) s else scan o c none s
  | some acc, a :: s => if a = c then acc :: scan o c none s else scan o c (some (acc ++ [a])) s

theorem scan_append (o c : Char) (s s' : Str) : ∀ st,
    scan o c st s <+: scan o c st (s ++ s') := by
  induction s with
  | nil => intro st; cases st <;> simp [scan]
  | cons a s ih =>
    intro st
    cases st with
    | none =>
      simp only [List.cons_append, scan]
      split <;> exact ih _
    | some acc =>
      simp only [List.cons_append, scan]
      split
      · exact List.cons_prefix_cons.2 ⟨rfl, ih _⟩
      · exact ih _

theorem split1_cons (c a : Char) (s : Str) :
    split1 c (a :: s) = if a = c then ([], some s) else ((a :: (split1 c s).1), (split1 c s).2) := rfl

theorem scan_some (o c : Char) (s : Str) : ∀ acc,
    scan o c (some acc) s = match split1 c s with
      | (p, some r) => (acc ++ p) :: scan o c none r
      | (_, none) => [] := by
  induction s with
  | nil => intro acc; simp [scan, split1]
  | cons a s ih =>
    intro acc
    rw [split1_cons]
    by_cases h : a = c
    · simp [scan, h]
    · simp only [scan, h, if_false]
      rw [ih]
      rcases hs : split1 c s with ⟨p, _ | r⟩ <;> simp

theorem scan_none_of_not_mem (o c : Char) (s : Str) (h : c ∉ s) : ∀ st, scan o c st s = [] := by
  induction s with
  | nil => intro st; cases st <;> rfl
  | cons a s ih =>
    simp only [List.mem_cons, not_or] at h
    intro st
    cases st with
    | none => simp only [scan]; split <;> exact ih h.2 _
    | some acc =>
      simp only [scan, if_neg (fun e : a = c => h.1 e.symm)]
      exact ih h.2 _

theorem split1_none_iff (c : Char) (s : Str) : (split1 c s).2 = none ↔ c ∉ s := by
  induction s with
  | nil => simp [split1]
  | cons a s ih =>
    rw [split1_cons]
    by_cases h : a = c
    · simp [h]
    · simp [h, ih, Ne.symm (show a ≠ c from h)]

theorem split1_some (c : Char) (s p r : Str) (h : split1 c s = (p, some r)) :
    s = p ++ c :: r ∧ c ∉ p := by
  induction s generalizing p r with
  | nil => simp [split1] at h
  | cons a s ih =>
    rw [split1_cons] at h
    by_cases h' : a = c
    · simp only [h', if_true, Prod.mk.injEq, Option.some.injEq] at h
      obtain ⟨rfl, rfl⟩ := h
      simp [h']
    · simp only [h', if_false, Prod.mk.injEq] at h
      obtain ⟨rfl, h2⟩ := h
      obtain ⟨h3, h4⟩ := ih (split1 c s).1 r (by rw [← h2])
      refine ⟨by rw [List.cons_append, ← h3], ?_⟩
      simp only [List.mem_cons, not_or]
      exact ⟨fun e => h' e.symm, h4⟩

theorem split1_append (c : Char) (p r : Str) (h : c ∉ p) : split1 c (p ++ c :: r) = (p, some r) := by
  induction p with
  | nil => simp [split1]
  | cons a p ih =>
    simp only [List.mem_cons, not_or] at h
    rw [List.cons_append, split1_cons, if_neg (fun e : a = c => h.1 e.symm), ih h.2]

theorem split1_of_not_mem (c : Char) (s : Str) (h : c ∉ s) : split1 c s = (s, none) := by
  induction s with
  | nil => rfl
  | cons a s ih =>
    simp only [List.mem_cons, not_or] at h
    rw [split1_cons, if_neg (fun e : a = c => h.1 e.symm), ih h.2]

/-- The generic pattern `o(.*?)c`. -/
def braced (o c : Char) : Re := .seq (Re.chr o) (.seq (.lazy Re.dot) (Re.chr c))

theorem run_lazy_to (c : Char) (s : Str) (hnl : '\n' ∉ s) :
    (Re.run (.seq (.lazy Re.dot) (Re.chr c)) s).head? =
      match split1 c s with
      | (p, some r) => some (p ++ [c], r)
      | (_, none) => none := by
  induction s with
  | nil => simp [Re.run, Re.runLazy, Re.chr, split1]
  | cons a s ih =>
    simp only [List.mem_cons, not_or] at hnl
    have hdot : Re.dot a = true := by simp [Re.dot]; exact fun e => hnl.1 e.symm
    rw [split1_cons]
    have hrun : Re.run (.seq (.lazy Re.dot) (Re.chr c)) (a :: s) =
        (Re.run (Re.chr c) (a :: s)) ++
          (Re.run (.seq (.lazy Re.dot) (Re.chr c)) s).map (fun ur => (a :: ur.1, ur.2)) := by
      simp only [Re.run, Re.runLazy, hdot, if_true, List.flatMap_cons, List.flatMap_map, List.map_flatMap,
        List.map_map, List.nil_append]
      congr 1
      simp
    rw [hrun]
    by_cases h : a = c
    · simp [Re.run, Re.chr, h]
    · have : Re.run (Re.chr c) (a :: s) = [] := by simp [Re.run, Re.chr, h]
      rw [this, List.nil_append, List.head?_map, ih hnl.2]
      rcases hs : split1 c s with ⟨p, _ | r⟩ <;> simp [h]

theorem matchAt_braced (o c a : Char) (s : Str) (hnl : '\n' ∉ s) :
    Re.matchAt (braced o c) (a :: s) =
      if a = o then
        match split1 c s with
        | (p, some r) => some (a :: (p ++ [c]), r)
        | (_, none) => none
      else none := by
  unfold Re.matchAt braced
  by_cases h : a = o
  · have : Re.run (.seq (Re.chr o) (.seq (.lazy Re.dot) (Re.chr c))) (a :: s) =
        (Re.run (.seq (.lazy Re.dot) (Re.chr c)) s).map (fun ur => (a :: ur.1, ur.2)) := by
      conv_lhs => rw [Re.run]
      simp [Re.run, Re.chr, h]
    rw [this, List.head?_map, run_lazy_to c s hnl]
    rcases hs : split1 c s with ⟨p, _ | r⟩ <;> simp [h]
  · simp [Re.run, Re.chr, h]

theorem findallFuel_braced (o c : Char) : ∀ (n : Nat) (s : Str), s.length < n → '\n' ∉ s →
    (Re.findallFuel (braced o c) n s).map Re.group1 = scan o c none s := by
  intro n
  induction n with
  | zero => intro s h; omega
  | succ n ih =>
    intro s hlen hnl
    cases s with
    | nil => simp [Re.findallFuel, scan]
    | cons a s =>
      simp only [List.mem_cons, not_or] at hnl
      simp only [List.length_cons] at hlen
      rw [Re.findallFuel, matchAt_braced o c a s hnl.2]
      simp only [scan]
      by_cases h : a = o
      · simp only [h, if_true]
        rw [scan_some]
        rcases hs : split1 c s with ⟨p, _ | r⟩
        · simp only
          rw [ih s (by omega) hnl.2]
          have : c ∉ s := by rw [← split1_none_iff, hs]
          exact scan_none_of_not_mem o c s this none
        · obtain ⟨h1, -⟩ := split1_some c s p r hs
          simp only [reduceCtorEq, if_false, List.map_cons, List.nil_append]
          rw [ih r ?_ ?_]
          · congr 1
            simp [Re.group1]
          · rw [h1] at hlen; simp at hlen; omega
          · rw [h1] at hnl; simp at hnl; tauto
      · simp only [h, if_false]
        exact ih s (by omega) hnl.2

/-- What `re.findall` returns for line 88. -/
theorem labels_eq (data : Str) (hnl : '\n' ∉ data) : labels data = scan '{' '}' none data :=
  findallFuel_braced '{' '}' _ data (Nat.lt_succ_self _) hnl

/-- What `re.findall` returns for line 128. -/
theorem bodies_eq (data : Str) (hnl : '\n' ∉ data) : bodies data = scan '}' ';' none data :=
  findallFuel_braced '}' ';' _ data (Nat.lt_succ_self _) hnl

theorem not_mem_removeChar (c : Char) (s : Str) : c ∉ removeChar c s := by
  simp [removeChar]

/-- Success of the parser, unfolded. -/
theorem extract_ok_iff (text : Str) (m : Mechanism) :
    extractMechanism text = .ok m ↔
      ∃ l n qs, (labels (removeChar '\n' text)).getLast? = some l ∧
        pyInt (stripBy (· == '.') l) = .ok n ∧
        parseAll (bodies (removeChar '\n' text)) n.toNat = .ok qs ∧
        m = { tables := build qs, equations := n } := by
  unfold extractMechanism
  simp only [bind, Except.bind, pure, Except.pure]
  cases h1 : (labels (removeChar '\n' text)).getLast? with
  | none => simp
  | some l =>
    simp only [Option.some.injEq]
    cases h2 : pyInt (stripBy (· == '.') l) with
    | error e =>
      simp only [reduceCtorEq, false_iff, not_exists, not_and]
      rintro l' n qs rfl h
      rw [h2] at h; cases h
    | ok n =>
      simp only
      cases h3 : parseAll (bodies (removeChar '\n' text)) n.toNat with
      | error e =>
        simp only [reduceCtorEq, false_iff, not_exists, not_and]
        rintro l' n' qs rfl h h'
        rw [h2] at h; cases h
        rw [h3] at h'; cases h'
      | ok qs =>
        simp only [Except.ok.injEq]
        constructor
        · rintro rfl; exact ⟨l, n, qs, rfl, h2, h3, rfl⟩
        · rintro ⟨l', n', qs', rfl, h, h', rfl⟩
          rw [h2] at h; cases h
          rw [h3] at h'; cases h'
          rfl

theorem parseAll_length : ∀ (n : Nat) (bs : List Str) (qs : List RawEqn),
    parseAll bs n = .ok qs → qs.length = n := by
  intro n
  induction n with
  | zero => intro bs qs h; simp [parseAll] at h; subst h; rfl
  | succ n ih =>
    intro bs qs h
    cases bs with
    | nil => simp [parseAll] at h
    | cons b bs =>
      simp only [parseAll, bind, Except.bind, pure, Except.pure] at h
      cases h1 : parseEqn b with
      | error e => simp [h1] at h
      | ok q =>
        cases h2 : parseAll bs n with
        | error e => simp [h1, h2] at h
        | ok qs' =>
          simp [h1, h2] at h
          subst h
          simp [ih bs qs' h2]

theorem parseAll_ok_iff : ∀ (n : Nat) (bs : List Str) (qs : List RawEqn),
    parseAll bs n = .ok qs ↔
      n ≤ bs.length ∧ (bs.take n).map parseEqn = qs.map Except.ok := by
  intro n
  induction n with
  | zero =>
    intro bs qs
    simp [parseAll]
  | succ n ih =>
    intro bs qs
    cases bs with
    | nil => simp [parseAll]
    | cons b bs =>
      simp only [parseAll, bind, Except.bind, pure, Except.pure, List.length_cons,
        Nat.add_le_add_iff_right, List.take_succ_cons, List.map_cons]
      cases h1 : parseEqn b with
      | error e =>
        simp only [reduceCtorEq, false_iff, not_and]
        intro _ h
        cases qs <;> simp at h
      | ok q =>
        simp only
        cases qs with
        | nil =>
          simp only [List.map_nil, reduceCtorEq, and_false, iff_false]
          cases h2 : parseAll bs n <;> simp
        | cons q' qs =>
          simp only [List.map_cons, List.cons.injEq, Except.ok.injEq]
          have := ih bs qs
          cases h2 : parseAll bs n with
          | error e =>
            simp only [reduceCtorEq, false_iff, not_and]
            intro h3 h4 h5
            rw [h2] at this
            simp only [reduceCtorEq, false_iff, not_and] at this
            exact this h3 h5
          | ok qs' =>
            rw [h2] at this
            simp only [Except.ok.injEq] at this
            simp only [Except.ok.injEq, List.cons.injEq]
            rw [this]
            tauto

end PyBox
