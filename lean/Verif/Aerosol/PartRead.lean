import Verif.Aerosol.PartAst
import Lean.Elab.Tactic.Basic

/-!
# Reading the generated partitioning routine

The characters of `Partitioning.f90` are read as the statements of `Aerosol/PartAst.lean`, for all numbers the
writer can put into the text.
-/

namespace PyBox

open Lean Elab Tactic Meta in
/-- Close `a = b` by reflexivity, leaving the comparison of `a` and `b` to the kernel. -/
elab "kernel_rfl" : tactic => do
  let g ← getMainGoal
  let t ← instantiateMVars (← g.getType)
  match t.consumeMData.eq? with
  | some (α, a, _) =>
    let u ← getLevel α
    g.assign (mkApp2 (mkConst ``Eq.refl [u]) α a)
  | none => throwError "not an equation"

namespace Ft

/-! ### Scanning -/

theorem flush_out (w : Str) (o p : List Tk) (k : Bool) :
    Scan.flush ⟨w, o ++ p, k⟩ = (Scan.flush ⟨w, o, k⟩).map (fun s => ⟨s.word, s.out ++ p, s.comment⟩) := by
  unfold Scan.flush
  dsimp only
  split
  · rfl
  · split
    · rfl
    · cases wordTk w.reverse <;> rfl

theorem char_out (w : Str) (o p : List Tk) (k : Bool) (c : Char) :
    Scan.char ⟨w, o ++ p, k⟩ c = (Scan.char ⟨w, o, k⟩ c).map (fun s => ⟨s.word, s.out ++ p, s.comment⟩) := by
  unfold Scan.char
  dsimp only
  rw [flush_out]
  split
  · rfl
  split
  · split <;> rfl
  split
  · split
    · rfl
    · cases Scan.flush ⟨w, o, k⟩ <;> rfl
  split
  · cases Scan.flush ⟨w, o, k⟩ <;> rfl
  split
  · rfl
  split
  · cases Scan.flush ⟨w, o, k⟩ <;> rfl
  · rfl

theorem run_none (t : Str) : Scan.run t none = none := by cases t <;> rfl

theorem run_append (a b : Str) (s : Option Scan) : Scan.run (a ++ b) s = Scan.run b (Scan.run a s) := by
  induction a generalizing s with
  | nil => cases s <;> simp [Scan.run, run_none]
  | cons c t ih =>
    cases s with
    | none => simp [Scan.run, run_none]
    | some s => simp [Scan.run, ih]

theorem run_out (t : Str) (w : Str) (o p : List Tk) (k : Bool) :
    Scan.run t (some ⟨w, o ++ p, k⟩) =
      (Scan.run t (some ⟨w, o, k⟩)).map (fun s => ⟨s.word, s.out ++ p, s.comment⟩) := by
  induction t generalizing w o k with
  | nil => rfl
  | cons c t ih =>
    rw [Scan.run, Scan.run, char_out]
    cases h : Scan.char ⟨w, o, k⟩ c with
    | none => simp [run_none]
    | some s => exact ih s.word s.out s.comment

/-- The end of a line. -/
def finish (s : Option Scan) : Option (List Tk) := (s.bind Scan.flush).map (fun s => s.out.reverse)

theorem finish_out (s : Scan) (p : List Tk) :
    finish (some ⟨s.word, s.out ++ p, s.comment⟩) = (finish (some s)).map (fun l => p.reverse ++ l) := by
  unfold finish
  simp only [Option.bind_some, flush_out]
  cases Scan.flush s <;> simp

theorem isWord_digit {c : Char} (h : isDigit c = true) : isWord c = true := by simp [isWord, h]

/-- Digits are collected. -/
theorem run_digits (d : Str) (hd : ∀ c ∈ d, isDigit c = true) (w : Str) (hw : w ≠ ['*']) (o : List Tk) :
    Scan.run d (some ⟨w, o, false⟩) = some ⟨d.reverse ++ w, o, false⟩ := by
  induction d generalizing w with
  | nil => rfl
  | cons c t ih =>
    have hc := hd c (by simp)
    rw [Scan.run]
    have : Scan.char ⟨w, o, false⟩ c = some ⟨c :: w, o, false⟩ := by
      simp [Scan.char, isWord_digit hc, hw]
    rw [this, ih (fun x hx => hd x (by simp [hx]))]
    · simp
    · intro h
      simp only [List.cons.injEq] at h
      rw [h.1] at hc
      exact absurd hc (by decide)

theorem toDigits_ne_nil (n : ℕ) : digits n ≠ [] := by
  unfold digits
  intro h
  exact absurd (congrArg List.length h) (by simp)

theorem wordTk_digits (n : ℕ) : wordTk (digits n) = some (.int n) := by
  cases h : digits n with
  | nil => exact absurd h (toDigits_ne_nil n)
  | cons c t =>
    have hd : ∀ x ∈ c :: t, isDigit x = true := by
      rw [← h]; exact isDigit_toDigits n
    have hv : digitsVal (c :: t) = n := by rw [← h]; exact digitsVal_toDigits n
    have ha : (c :: t).all isDigit = true := List.all_eq_true.mpr hd
    simp only [wordTk, hd c (by simp), ha, if_true, hv]

theorem digits_not_star (n : ℕ) : (digits n).reverse ≠ ['*'] := by
  intro h
  have : digits n = ['*'] := by simpa using congrArg List.reverse h
  have hd := isDigit_toDigits n '*' (by show '*' ∈ digits n; rw [this]; simp)
  exact absurd hd (by decide)

theorem flush_digits (n : ℕ) (o : List Tk) (k : Bool) :
    Scan.flush ⟨(digits n).reverse, o, k⟩ = some ⟨[], .int n :: o, k⟩ := by
  have h0 : (digits n).reverse ≠ [] := by simpa using toDigits_ne_nil n
  simp [Scan.flush, digits_not_star n, wordTk_digits, toDigits_ne_nil n]

/-- A character that ends a number. -/
def ends (c : Char) : Bool := !(isWord c) && !(c == '+') && !(c == '-')

theorem char_digits (n : ℕ) (o : List Tk) {c : Char} (hc : ends c = true) :
    Scan.char ⟨(digits n).reverse, o, false⟩ c = Scan.char ⟨[], .int n :: o, false⟩ c := by
  have h1 : isWord c = false := by
    cases h : isWord c <;> simp_all [ends]
  have h2 : ∀ w, inExpo w c = false := by
    intro w
    have : (c == '+' || c == '-') = false := by
      cases h : (c == '+') <;> cases h' : (c == '-') <;> simp_all [ends]
    simp [inExpo, this]
  have hf : ∀ k, Scan.flush ⟨[], .int n :: o, k⟩ = some ⟨[], .int n :: o, k⟩ := fun k => rfl
  unfold Scan.char
  simp only [h1, h2, flush_digits, hf, digits_not_star, Bool.or_false, Bool.false_eq_true, if_false]
  simp

/-! ### Lines with numbers -/

/-- A token or a number that is put in. -/
abbrev STk := Tk ⊕ Hole

def STk.fill (ρ : Hole → ℕ) : STk → Tk
  | .inl t => t
  | .inr h => .int (ρ h)

/-- Scanning with numbers unknown; `after`: the last piece was a number. -/
def symLex : List Piece → Scan → Bool → Option (List STk)
  | [], s, _ => (finish (some s)).map (List.map Sum.inl)
  | .txt t :: ps, s, after =>
    match t with
    | [] => none
    | c :: _ =>
      if after && !(ends c) then none
      else match Scan.run t (some s) with
        | some s => symLex ps s false
        | none => none
  | .hole h :: ps, s, after =>
    if s.word = [] ∧ s.comment = false ∧ after = false then
      (symLex ps ⟨[], [], false⟩ true).map (fun r => s.out.reverse.map Sum.inl ++ .inr h :: r)
    else none

theorem symLex_sound (ρ : Hole → ℕ) : ∀ (ps : List Piece) (s : Scan) (after : Bool) (r : List STk),
    symLex ps s after = some r →
    (after = false → finish (Scan.run (lineText ρ ps) (some s)) = some (r.map (STk.fill ρ))) ∧
    (after = true → s = ⟨[], [], false⟩ → ∀ n o,
      finish (Scan.run (lineText ρ ps) (some ⟨(digits n).reverse, o, false⟩)) =
        some (o.reverse ++ .int n :: r.map (STk.fill ρ)))
  | [], s, after, r, h => by
    simp only [symLex, Option.map_eq_some_iff] at h
    obtain ⟨l, hl, rfl⟩ := h
    have hm : (l.map Sum.inl).map (STk.fill ρ) = l := by
      rw [List.map_map]
      exact (List.map_congr_left (fun _ _ => rfl)).trans (List.map_id l)
    refine ⟨fun _ => ?_, fun _ hs n o => ?_⟩
    · rw [hm]; exact hl
    · rw [hm]
      subst hs
      have : l = [] := by
        have h' : finish (some ⟨[], [], false⟩) = some [] := rfl
        rw [h'] at hl
        exact (Option.some.inj hl).symm
      subst this
      simp [lineText, Scan.run, finish, flush_digits]
  | .txt t :: ps, s, after, r, h => by
    cases t with
    | nil => simp [symLex] at h
    | cons c t =>
      simp only [symLex] at h
      split at h
      · exact absurd h (by simp)
      rename_i hends
      cases hr : Scan.run (c :: t) (some s) with
      | none => rw [hr] at h; simp at h
      | some s' =>
        rw [hr] at h
        dsimp only at h
        have ih := (symLex_sound ρ ps s' false r h).1 rfl
        have hl : lineText ρ (.txt (c :: t) :: ps) = (c :: t) ++ lineText ρ ps := rfl
        refine ⟨fun _ => ?_, fun ha hs n o => ?_⟩
        · rw [hl, run_append, hr, ih]
        · have hc : ends c = true := by
            cases hh : ends c <;> simp_all
          subst hs
          have h1 : Scan.run (c :: t) (some ⟨(digits n).reverse, o, false⟩) =
              some ⟨s'.word, s'.out ++ (.int n :: o), s'.comment⟩ := by
            rw [Scan.run, char_digits n o hc]
            have := run_out (c :: t) [] [] (.int n :: o) false
            rw [List.nil_append, Scan.run, hr] at this
            exact this
          have h2 := run_out (lineText ρ ps) s'.word s'.out (.int n :: o) s'.comment
          rw [hl, run_append, h1, h2]
          cases hq : Scan.run (lineText ρ ps) (some s') with
          | none => rw [hq] at ih; simp [finish] at ih
          | some q =>
            rw [hq] at ih
            rw [Option.map_some, finish_out, ih]
            simp
  | .hole h :: ps, s, after, r, hs => by
    simp only [symLex] at hs
    split at hs
    · rename_i hc
      obtain ⟨hw, hk, ha⟩ := hc
      rw [Option.map_eq_some_iff] at hs
      obtain ⟨r', hr', rfl⟩ := hs
      refine ⟨fun _ => ?_, fun ha' => by rw [ha] at ha'; exact absurd ha' (by simp)⟩
      have ih := (symLex_sound ρ ps _ true r' hr').2 rfl rfl (ρ h) s.out
      have hl : lineText ρ (.hole h :: ps) = digits (ρ h) ++ lineText ρ ps := rfl
      obtain ⟨w, o, k⟩ := s
      dsimp only at hw hk ih ⊢
      subst hw hk
      rw [hl, run_append, run_digits (digits (ρ h)) (isDigit_toDigits (ρ h)) [] (by simp) o, List.append_nil, ih]
      simp [STk.fill, Function.comp_def]
    · exact absurd hs (by simp)

/-- A line. -/
def symLine : List Piece → Option (List STk)
  | [.txt t] => (lexLine t).map (List.map Sum.inl)
  | .txt (' ' :: t) :: ps => symLex (.txt (' ' :: t) :: ps) ⟨[], [], false⟩ false
  | _ => none

theorem symLine_sound (ρ : Hole → ℕ) (l : List Piece) (r : List STk) (h : symLine l = some r) :
    lexLine (lineText ρ l) = some (r.map (STk.fill ρ)) := by
  unfold symLine at h
  split at h
  · rename_i t
    rw [Option.map_eq_some_iff] at h
    obtain ⟨x, hx, rfl⟩ := h
    have : lineText ρ [.txt t] = t := by simp [lineText, Piece.text]
    rw [this, hx, List.map_map]
    exact congrArg some ((List.map_congr_left (fun _ _ => rfl)).trans (List.map_id x)).symm
  · rename_i t ps _
    have h1 := (symLex_sound ρ _ _ _ _ h).1 rfl
    have h2 : ¬ Rl.lower ((lineText ρ (.txt (' ' :: t) :: ps)).take 5) = "!$omp".toList := by
      have : lineText ρ (.txt (' ' :: t) :: ps) = ' ' :: (t ++ lineText ρ ps) := rfl
      rw [this, List.take_succ_cons]
      intro hh
      have := congrArg List.head? hh
      exact absurd this (by simp [Rl.lower])
    unfold lexLine
    rw [if_neg h2]
    exact h1
  · exact absurd h (by simp)

theorem lexLines_sound (ρ : Hole → ℕ) {ls : List (List Piece)} {rs : List (List STk)}
    (h : ls.mapM symLine = some rs) :
    (ls.map (lineText ρ)).mapM lexLine = some (rs.map (List.map (STk.fill ρ))) := by
  induction ls generalizing rs with
  | nil => simp at h; subst h; rfl
  | cons l ls ih =>
    simp only [List.mapM_cons, Option.bind_eq_bind, Option.pure_def] at h
    cases h1 : symLine l with
    | none => rw [h1] at h; simp at h
    | some r =>
      cases h2 : ls.mapM symLine with
      | none => rw [h1, h2] at h; simp at h
      | some rs' =>
        rw [h1, h2] at h
        simp only [Option.bind_some, Option.some.injEq] at h
        subst h
        rw [List.map_cons, List.mapM_cons, symLine_sound ρ l r h1, ih h2]
        rfl

/-! ### The lines of the file -/

theorem mapM_append_some {α β : Type} {f : α → Option β} {a b : List α} {x y : List β}
    (ha : a.mapM f = some x) (hb : b.mapM f = some y) : (a ++ b).mapM f = some (x ++ y) := by
  rw [List.mapM_append, ha, hb]; rfl

theorem splitOn_lines (ls : List Str) (h : ∀ l ∈ ls, '\n' ∉ l) :
    splitOn '\n' (ls.flatMap (fun l => l ++ ['\n'])) = ls ++ [[]] := by
  induction ls with
  | nil => rfl
  | cons l ls ih =>
    have : (l :: ls).flatMap (fun l => l ++ ['\n']) = l ++ '\n' :: ls.flatMap (fun l => l ++ ['\n']) := by
      simp
    rw [this, splitOn_append '\n' l _ (h l (by simp)), ih (fun x hx => h x (by simp [hx]))]
    rfl

theorem joinLines_append (a b : List (List Tk)) (h : ∀ l, a.getLast? = some l → l.getLast? ≠ some (.sym '&')) :
    joinLines (a ++ b) = joinLines a ++ joinLines b := by
  induction a with
  | nil => rfl
  | cons l ls ih =>
    cases ls with
    | nil =>
      have hl := h l rfl
      show joinLines (l :: b) = [l] ++ joinLines b
      rw [joinLines]
      cases joinLines b with
      | nil => rfl
      | cons m ms => simp [hl]
    | cons m ms =>
      have ih := ih (fun x hx => h x (by rw [List.getLast?_cons_cons]; exact hx))
      show joinLines (l :: (m :: ms ++ b)) = joinLines (l :: m :: ms) ++ joinLines b
      rw [joinLines, ih]
      conv_rhs => rw [joinLines]
      cases hj : joinLines (m :: ms) with
      | nil =>
        exfalso
        revert hj
        rw [joinLines]
        cases joinLines ms with
        | nil => simp
        | cons x xs => dsimp only; split <;> simp
      | cons x xs =>
        dsimp only [List.cons_append]
        split <;> rfl

/-- The tokens of the fixed lines. -/
def symTop : List (List STk) := (partTop.mapM symLine).getD []
def symHead : List (List STk) := (partHead.mapM symLine).getD []
def symFoot : List (List STk) := (partFoot.mapM symLine).getD []

theorem some_getD {α : Type} {x : Option α} (d : α) (h : x.isSome = true) : x = some (x.getD d) := by
  cases x <;> simp_all

theorem symTop_eq : partTop.mapM symLine = some symTop := some_getD [] (by decide +kernel)
theorem symHead_eq : partHead.mapM symLine = some symHead := some_getD [] (by decide +kernel)
theorem symFoot_eq : partFoot.mapM symLine = some symFoot := some_getD [] (by decide +kernel)

/-- The pieces of a line of the loop over `include_index`. -/
def gasPieces : List Piece :=
  [.txt (chars% "        dy_dt_gas_matrix("), .hole .total, .txt (chars% ",size_step)=dm_dt("), .hole .cond,
    .txt (chars% ") ")]

/-- The tokens of such a line. -/
def gasTks (p : ℕ × ℕ) : List Tk :=
  [.id (chars% "dy_dt_gas_matrix"), .sym '(', .int (p.1 + 1), .sym ',', .id (chars% "size_step"), .sym ')', .sym '=',
    .id (chars% "dm_dt"), .sym '(', .int (p.2 + 1), .sym ')']

def gasHoles (p : ℕ × ℕ) : Hole → ℕ
  | .total => p.1 + 1
  | _ => p.2 + 1

theorem gas_lex (p : ℕ × ℕ) : lexLine (gasLine p.1 p.2) = some (gasTks p) := by
  have h : symLine gasPieces = some [.inl (.id (chars% "dy_dt_gas_matrix")), .inl (.sym '('), .inr .total,
      .inl (.sym ','), .inl (.id (chars% "size_step")), .inl (.sym ')'), .inl (.sym '='), .inl (.id (chars% "dm_dt")),
      .inl (.sym '('), .inr .cond, .inl (.sym ')')] := by decide +kernel
  have hl : gasLine p.1 p.2 = lineText (gasHoles p) gasPieces := by
    simp only [gasLine, gasPieces, lineText, Piece.text, gasHoles, List.flatMap_cons, List.flatMap_nil,
      List.append_nil, List.append_assoc]
  rw [hl, symLine_sound _ _ _ h]
  rfl

theorem gas_lex_all (l : List (ℕ × ℕ)) :
    (l.map (fun p => gasLine p.1 p.2)).mapM lexLine = some (l.map gasTks) := by
  induction l with
  | nil => rfl
  | cons p l ih => rw [List.map_cons, List.mapM_cons, gas_lex, ih]; rfl

theorem created_lex (date : Str) : lexLine (createdLine date) = some [] := by
  have h : ∀ (t : Str) (o : List Tk), Scan.run t (some ⟨[], o, true⟩) = some ⟨[], o, true⟩ := by
    intro t o
    induction t with
    | nil => rfl
    | cons c t ih => rw [Scan.run]; exact ih
  unfold lexLine
  have h1 : ¬ Rl.lower ((createdLine date).take 5) = "!$omp".toList := by
    have : createdLine date = '!' :: ' ' :: ((chars% "File created at ") ++ (date ++ [' '])) := by
      simp only [createdLine, List.cons_append, List.nil_append]
    rw [this, List.take_succ_cons, List.take_succ_cons]
    intro hh
    have := congrArg (fun l => l[1]?) hh
    exact absurd this (by simp [Rl.lower])
  rw [if_neg h1]
  have : createdLine date = '!' :: ((chars% " File created at ") ++ (date ++ [' '])) := by
    simp only [createdLine, List.cons_append, List.nil_append]
  rw [this, Scan.run]
  have h2 : Scan.char ⟨[], [], false⟩ '!' = some ⟨[], [], true⟩ := by decide
  rw [h2, h]
  rfl

/-- No line contains a line feed. -/
theorem fixed_noFeed : ∀ l ∈ partTop ++ partHead ++ partFoot, ∀ q ∈ l, ∀ s, q = .txt s → '\n' ∉ s := by
  have h : (partTop ++ partHead ++ partFoot).all (fun l => l.all (fun q => match q with
    | .txt s => decide ('\n' ∉ s)
    | .hole _ => true)) = true := by decide +kernel
  intro l hl q hq s hs
  have := List.all_eq_true.mp (List.all_eq_true.mp h l hl) q hq
  subst hs
  simpa using this

theorem digits_noFeed (n : ℕ) : '\n' ∉ digits n := fun h =>
  absurd (isDigit_toDigits n '\n' h) (by decide)

theorem lineText_noFeed (ρ : Hole → ℕ) {l : List Piece} (hl : l ∈ partTop ++ partHead ++ partFoot) :
    '\n' ∉ lineText ρ l := by
  intro h
  unfold lineText at h
  rw [List.mem_flatMap] at h
  obtain ⟨q, hq, hm⟩ := h
  cases q with
  | txt s => exact fixed_noFeed l hl _ hq s rfl hm
  | hole k => exact digits_noFeed _ hm

theorem gasLine_noFeed (a b : ℕ) : '\n' ∉ gasLine a b := by
  simp only [gasLine, List.mem_append, not_or]
  exact ⟨⟨⟨⟨by decide, digits_noFeed _⟩, by decide⟩, digits_noFeed _⟩, by decide⟩

theorem partLines_noFeed {date : Str} (hd : '\n' ∉ date) (L : Aerosol.Layout) (total : ℕ) :
    ∀ l ∈ partLines date L total, '\n' ∉ l := by
  intro l hl
  simp only [partLines, List.mem_append, List.mem_cons, List.mem_map] at hl
  rcases hl with ((⟨p, hp, rfl⟩ | rfl | ⟨p, hp, rfl⟩) | ⟨p, _, rfl⟩) | ⟨p, hp, rfl⟩
  · exact lineText_noFeed _ (by simp [hp])
  · simp only [createdLine, List.mem_append, not_or]
    exact ⟨⟨by decide, hd⟩, by decide⟩
  · exact lineText_noFeed _ (by simp [hp])
  · exact gasLine_noFeed _ _
  · exact lineText_noFeed _ (by simp [hp])

/-- Tokens of the lines, without empty ones. -/
def tks (ρ : Hole → ℕ) (l : List (List STk)) : List (List Tk) :=
  (l.map (List.map (STk.fill ρ))).filter (fun l => !l.isEmpty)

theorem partLines_lex {date : Str} (L : Aerosol.Layout) (total : ℕ) :
    (partLines date L total).mapM lexLine =
      some (symTop.map (List.map (STk.fill (holes L total))) ++
        ([] :: symHead.map (List.map (STk.fill (holes L total)))) ++ L.incl.zipIdx.map gasTks ++
        symFoot.map (List.map (STk.fill (holes L total)))) := by
  unfold partLines
  refine mapM_append_some (mapM_append_some (mapM_append_some (lexLines_sound _ symTop_eq) ?_)
    (gas_lex_all _)) (lexLines_sound _ symFoot_eq)
  rw [List.mapM_cons, created_lex, lexLines_sound _ symHead_eq]
  rfl

theorem top_tks (ρ : Hole → ℕ) : tks ρ symTop = [] := by kernel_rfl

theorem gasTks_filter (l : List (ℕ × ℕ)) : (l.map gasTks).filter (fun l => !l.isEmpty) = l.map gasTks := by
  rw [List.filter_eq_self]
  intro x hx
  rw [List.mem_map] at hx
  obtain ⟨p, _, rfl⟩ := hx
  rfl

theorem joinLines_gas (l : List (ℕ × ℕ)) : joinLines (l.map gasTks) = l.map gasTks := by
  induction l with
  | nil => rfl
  | cons p l ih =>
    rw [List.map_cons, joinLines, ih]
    cases l with
    | nil => rfl
    | cons q l =>
      have : (gasTks p).getLast? ≠ some (.sym '&') := by simp [gasTks]
      simp [this]

theorem head_last (ρ : Hole → ℕ) : ((tks ρ symHead).getLast?.bind List.getLast?) = some (.sym ')') := by kernel_rfl

theorem statements_part {date : Str} (hd : '\n' ∉ date) (L : Aerosol.Layout) (total : ℕ) :
    statements (partText date L total) =
      some (joinLines (tks (holes L total) symHead) ++ L.incl.zipIdx.map gasTks ++
        joinLines (tks (holes L total) symFoot)) := by
  unfold statements partText
  rw [splitOn_lines _ (partLines_noFeed hd L total),
    mapM_append_some (partLines_lex L total) (show [([] : Str)].mapM lexLine = some [[]] from rfl)]
  simp only [Option.map_some, List.filter_append, List.filter_cons, List.isEmpty_nil, Bool.not_true,
    Bool.false_eq_true, if_false, List.filter_nil, List.append_nil]
  have htop := top_tks (holes L total)
  unfold tks at htop
  rw [htop, List.nil_append, gasTks_filter]
  show some (joinLines (tks (holes L total) symHead ++ L.incl.zipIdx.map gasTks ++ tks (holes L total) symFoot)) = _
  rw [joinLines_append, joinLines_append, joinLines_gas]
  · intro l hl
    have := head_last (holes L total)
    rw [hl] at this
    simp only [Option.bind_some] at this
    rw [this]
    decide
  · intro l hl
    rw [List.getLast?_append] at hl
    cases hg : (L.incl.zipIdx.map gasTks).getLast? with
    | none =>
      rw [hg] at hl
      have hl : (tks (holes L total) symHead).getLast? = some l := by simpa using hl
      have := head_last (holes L total)
      rw [hl] at this
      simp only [Option.bind_some] at this
      rw [this]
      decide
    | some x =>
      rw [hg] at hl
      have hl : x = l := by simpa using hl
      have hx := List.mem_of_getLast? hg
      rw [List.mem_map] at hx
      obtain ⟨p, _, rfl⟩ := hx
      subst hl
      simp [gasTks]

end Ft
end PyBox
