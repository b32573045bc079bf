import Verif.Gen.Names
import Verif.Aerosol.PartText
import Verif.Aerosol.SourceAll
import Verif.Props.GasText

/-!
# C87: names in the generated Fortran files
-/

namespace PyBox

open Spec Ft

/-! ### Numbers in fixed text -/

/-- No number follows a name directly. -/
def holesFree : Mode → List Piece → Bool
  | _, [] => true
  | m, .txt s :: l => holesFree (after m s) l
  | m, .hole _ :: l => m.free && holesFree (if m = .comment then .comment else .number) l

theorem read_pieces (ρ σ : Hole → ℕ) : ∀ (l : List Piece) (m : Mode), holesFree m l = true →
    given m (lineText ρ l) = given m (lineText σ l) ∧ after m (lineText ρ l) = after m (lineText σ l) := by
  intro l
  induction l with
  | nil => intro m _; exact ⟨rfl, rfl⟩
  | cons p l ih =>
    intro m h
    cases p with
    | txt s =>
      have := ih (after m s) h
      simp only [lineText, List.flatMap_cons, Piece.text] at this ⊢
      rw [given_append, given_append, after_append, after_append, this.1, this.2]
      exact ⟨rfl, rfl⟩
    | hole k =>
      unfold holesFree at h
      rw [Bool.and_eq_true] at h
      have hd : ∀ n, given m (digits n) = [] ∧ after m (digits n) = if m = .comment then .comment else .number :=
        fun n => digits_read h.1 (digits_ne_nil n) (digits_chars n)
      have := ih _ h.2
      simp only [lineText, List.flatMap_cons, Piece.text] at this ⊢
      rw [given_append, given_append, after_append, after_append, (hd _).1, (hd _).1, (hd _).2, (hd _).2, this.1,
        this.2]
      exact ⟨rfl, rfl⟩

/-- Text with numbers in it: the statements do not depend on the numbers. -/
theorem Complete.of_pieces (ρ : Hole → ℕ) {l : List Piece} (h : holesFree .blank l = true)
    (hc : completeCheck (lineText (fun _ => 0) l) = true) :
    Complete (lineText ρ l) (fortranStatements (lineText (fun _ => 0) l)) := by
  intro y
  obtain ⟨e1, e2⟩ := read_pieces ρ (fun _ => 0) l .blank h
  have : fortranStatements (lineText ρ l ++ y) = fortranStatements (lineText (fun _ => 0) l ++ y) := by
    unfold fortranStatements
    rw [lexemes_append, lexemes_append, e1, e2]
  rw [this]
  exact Complete.of_check hc y

/-- The lines of a source as one list of pieces. -/
def joinedPieces (ls : List (List Piece)) : List Piece := ls.flatMap (fun l => l ++ [.txt ['\n']])

theorem joinedPieces_text (ρ : Hole → ℕ) (ls : List (List Piece)) :
    (ls.map (lineText ρ)).flatMap (fun l => l ++ ['\n']) = lineText ρ (joinedPieces ls) := by
  induction ls with
  | nil => rfl
  | cons l ls ih =>
    simp only [List.map_cons, List.flatMap_cons, joinedPieces] at ih ⊢
    rw [ih]
    simp only [lineText, List.flatMap_append, List.flatMap_cons, List.flatMap_nil, Piece.text, List.append_nil,
      List.append_assoc]

theorem Complete.comment {s : Str} (h : '\n' ∉ s) : Complete ('!' :: s ++ ['\n']) [] := by
  have hg : ∀ s : Str, '\n' ∉ s → lexemes .comment s = [] := by
    intro s
    induction s with
    | nil => intro _; rfl
    | cons c s ih =>
      intro h
      rw [lexemes, if_neg (fun e => h (by simp [e])), if_pos rfl]
      exact ih fun e => h (List.mem_cons_of_mem _ e)
  have e : lexemes .blank ('!' :: s) = [] := by
    rw [lexemes, if_neg (by decide), if_neg (by decide), if_pos rfl, hg s h]
    rfl
  have h1 : Complete ('!' :: s ++ ['\n']) _ := Complete.of_line (by rw [e]; simp)
  have h2 : fortranStatements ('!' :: s ++ ['\n']) = [] := by
    unfold fortranStatements
    rw [lexemes_line, e]
    decide
  rwa [h2] at h1

/-! ### Checking a file -/

/-- Names declared by the statements after the first two, up to the first that is not a declaration. -/
def declaredIn (S : List (List Lexeme)) : List Str :=
  ((S.drop 2).takeWhile (fun s => (declaration s).isSome)).flatMap (fun s => ((declaration s).getD ([], [])).1)

def usedIn (S : List (List Lexeme)) : List Str :=
  ((S.drop 2).takeWhile (fun s => (declaration s).isSome)).flatMap (fun s => ((declaration s).getD ([], [])).2) ++
    ((S.drop 2).dropWhile (fun s => (declaration s).isSome)).flatMap namesOf

def knownIn (D : List Str) (l : List Str) : Bool := l.all (fun w => decide (w ∈ reserved) || decide (w ∈ D))

/-- `S` are the first statements and `E` the last ones. -/
def fileCheck (name : Str) (args : List Str) (S E : List (List Lexeme)) : Bool :=
  let D := declaredIn S
  decide (S.take 2 = [heading name args, [.name (chars% "implicit"), .name (chars% "none")]]) && decide D.Nodup &&
    args.all (fun a => decide (a ∈ D)) && knownIn D (usedIn S) &&
    decide (E.getLast? = some [.name (chars% "end"), .name (chars% "subroutine")]) &&
    knownIn D (E.dropLast.flatMap namesOf)

theorem known_iff {D l : List Str} : knownIn D l = true ↔ ∀ w ∈ l, w ∈ reserved ∨ w ∈ D := by
  unfold knownIn
  simp only [List.all_eq_true, Bool.or_eq_true, decide_eq_true_eq]

theorem NamesDeclared.of_check {name : Str} {args : List Str} {text : Str} {S G E : List (List Lexeme)}
    (h : fortranStatements text = S ++ G ++ E) (hc : fileCheck name args S E = true)
    (hG : ∀ s ∈ G, ∀ w ∈ namesOf s, w ∈ reserved ∨ w ∈ declaredIn S) : NamesDeclared name args text := by
  unfold fileCheck at hc
  simp only [Bool.and_eq_true, decide_eq_true_eq, List.all_eq_true, known_iff] at hc
  obtain ⟨⟨⟨⟨⟨h1, h2⟩, h3⟩, h4⟩, h5⟩, h6⟩ := hc
  obtain ⟨E', rfl⟩ := List.getLast?_eq_some_iff.1 h5
  rw [List.dropLast_concat] at h6
  have hS : S = heading name args :: [.name (chars% "implicit"), .name (chars% "none")] :: S.drop 2 := by
    conv_lhs => rw [← List.take_append_drop 2 S, h1]
    rfl
  refine ⟨(S.drop 2).takeWhile (fun s => (declaration s).isSome),
    (S.drop 2).dropWhile (fun s => (declaration s).isSome) ++ G ++ E', ?_,
    ((S.drop 2).takeWhile (fun s => (declaration s).isSome)).map (fun s => (declaration s).getD ([], [])), ?_, ?_, ?_, ?_⟩
  · rw [h]
    conv_lhs => rw [hS]
    conv_lhs => rw [← List.takeWhile_append_dropWhile (p := fun s => (declaration s).isSome) (l := S.drop 2)]
    simp only [List.cons_append, List.append_assoc]
  · rw [List.map_map]
    refine List.map_congr_left fun s hs => ?_
    have := List.mem_takeWhile_imp hs
    obtain ⟨d, hd⟩ := Option.isSome_iff_exists.1 this
    rw [Function.comp, hd]
    rfl
  · rw [List.flatMap_map]; exact h2
  · rw [List.flatMap_map]; exact h3
  · rw [List.flatMap_map, List.flatMap_map]
    intro w hw
    have hD : declaredIn S = ((S.drop 2).takeWhile (fun s => (declaration s).isSome)).flatMap
      (fun s => ((declaration s).getD ([], [])).1) := rfl
    rw [← hD]
    rw [List.flatMap_append, List.flatMap_append, List.append_assoc, ← List.append_assoc] at hw
    rcases List.mem_append.1 hw with hw | hw
    · exact h4 w hw
    · rcases List.mem_append.1 hw with hw | hw
      · obtain ⟨s, hs, hw⟩ := List.mem_flatMap.1 hw
        exact hG s hs w hw
      · exact h6 w hw

/-- What a file declares, it declares in some statement. -/
theorem NamesDeclared.used {name : Str} {args : List Str} {text : Str} (h : NamesDeclared name args text)
    {s : List Lexeme} (hs : s ∈ (fortranStatements text).drop 2) (hd : declaration s = none) {w : Str}
    (hw : w ∈ namesOf s) :
    w ∈ reserved ∨ s = [.name (chars% "end"), .name (chars% "subroutine")] ∨
      ∃ d ∈ fortranStatements text, ∃ p, declaration d = some p ∧ w ∈ p.1 := by
  obtain ⟨decls, body, h1, parts, h2, -, -, h3⟩ := h
  rw [h1, List.drop_succ_cons, List.drop_succ_cons, List.drop_zero] at hs
  rcases List.mem_append.1 hs with hs | hs
  · rcases List.mem_append.1 hs with hs | hs
    · have : declaration s ∈ parts.map some := h2 ▸ List.mem_map_of_mem hs
      rw [hd] at this
      simp at this
    · rcases h3 w (List.mem_append_right _ (List.mem_flatMap.2 ⟨s, hs, hw⟩)) with h | h
      · exact .inl h
      · obtain ⟨p, hp, hwp⟩ := List.mem_flatMap.1 h
        have : some p ∈ decls.map declaration := h2 ▸ List.mem_map_of_mem hp
        obtain ⟨d, hd', he⟩ := List.mem_map.1 this
        refine .inr (.inr ⟨d, ?_, p, he, hwp⟩)
        rw [h1]
        simp [hd']
  · exact .inr (.inl (by simpa using hs))

/-! ### The partitioning routine -/

/-- The arguments of `dydt_partition`. -/
def partitionArgs : List Str := [chars% "y", chars% "ycore", chars% "core_diss", chars% "core_mass_array",
  chars% "density_input", chars% "core_density_array", chars% "ignore_index", chars% "mw_array", chars% "psat",
  chars% "dstar_org", chars% "alpha_d_org", chars% "c_g_i_t", chars% "n_perbin", chars% "gamma_gas",
  chars% "latent_heat", chars% "grav", chars% "updraft", chars% "sigma", chars% "na", chars% "kb", chars% "rv",
  chars% "r_gas", chars% "model_temp", chars% "cp", chars% "ra", chars% "lv_water_vapour",
  chars% "total_soa_mass", chars% "aw_array", chars% "size_array", chars% "dy_dt"]

def headText : Str := lineText (fun _ => 0) (joinedPieces partHead)
def footText : Str := lineText (fun _ => 0) (joinedPieces partFoot)

/-- The statement of an entry of `include_index`. -/
def gasStatement : List Lexeme := [.name (chars% "dy_dt_gas_matrix"), .sym '(', .sym ',', .name (chars% "size_step"),
  .sym ')', .sym '=', .name (chars% "dm_dt"), .sym '(', .sym ')']

theorem part_top (ρ : Hole → ℕ) : Complete (lineText ρ (joinedPieces partTop)) [] := by
  have h := Complete.of_pieces ρ (l := joinedPieces partTop) (by decide +kernel) (by decide +kernel)
  rwa [show fortranStatements (lineText (fun _ => 0) (joinedPieces partTop)) = [] by decide +kernel] at h

theorem part_check : fileCheck (chars% "dydt_partition") partitionArgs (fortranStatements headText)
    (fortranStatements footText) = true := by decide +kernel

theorem gas_known : knownIn (declaredIn (fortranStatements headText)) (namesOf gasStatement) = true := by
  decide +kernel

theorem created_complete {date : Str} (hd : '\n' ∉ date) : Complete (createdLine date ++ ['\n']) [] := by
  have e : createdLine date = '!' :: ((chars% " File created at ") ++ date ++ [' ']) := rfl
  rw [e]
  refine Complete.comment ?_
  simp only [List.mem_append, not_or]
  exact ⟨⟨by decide, hd⟩, by decide⟩

def gasLinePieces : List Piece := [.txt (chars% "        dy_dt_gas_matrix("), .hole .species,
  .txt (chars% ",size_step)=dm_dt("), .hole .cond, .txt (chars% ") \n")]

theorem gasLine_complete (num step : ℕ) : Complete (gasLine num step ++ ['\n']) [gasStatement] := by
  have h := Complete.of_pieces (fun h => match h with
    | .species => num + 1
    | _ => step + 1) (l := gasLinePieces) (by decide +kernel) (by decide +kernel)
  rw [show fortranStatements (lineText (fun _ => 0) gasLinePieces) = [gasStatement] by decide +kernel] at h
  have e : gasLine num step ++ ['\n'] = lineText (fun h => match h with
    | .species => num + 1
    | _ => step + 1) gasLinePieces := by
    simp only [gasLine, gasLinePieces, lineText, List.flatMap_cons, List.flatMap_nil, Piece.text, List.append_assoc,
      List.append_nil]
    rfl
  rw [e]
  exact h

/-- **C87**, `Partitioning.f90` as the aerosol drivers write it: for every layout, length and date, every name used in
the file is declared, once and before it is used. -/
theorem C87_partition {date : Str} (hd : '\n' ∉ date) (L : Aerosol.Layout) (total : ℕ) :
    NamesDeclared (chars% "dydt_partition") partitionArgs (partText date L total) := by
  have e : partText date L total = lineText (holes L total) (joinedPieces partTop) ++ (createdLine date ++ ['\n']) ++
      lineText (holes L total) (joinedPieces partHead) ++
      L.incl.zipIdx.flatMap (fun p => gasLine p.1 p.2 ++ ['\n']) ++ lineText (holes L total) (joinedPieces partFoot) := by
    unfold partText partLines
    rw [List.flatMap_append, List.flatMap_append, List.flatMap_append, List.flatMap_cons, joinedPieces_text, joinedPieces_text, joinedPieces_text,
      List.flatMap_map]
    simp only [List.append_assoc]
  have h := ((((part_top (holes L total)).append (created_complete hd)).append
    (Complete.of_pieces (holes L total) (l := joinedPieces partHead) (by decide +kernel) (by decide +kernel))).append
    (Complete.flatMap (l := L.incl.zipIdx) (g := fun _ => [gasStatement])
      (fun p _ => gasLine_complete p.1 p.2))).append
    (Complete.of_pieces (holes L total) (l := joinedPieces partFoot) (by decide +kernel) (by decide +kernel))
  rw [← e] at h
  refine NamesDeclared.of_check (S := fortranStatements headText) (G := L.incl.zipIdx.flatMap (fun _ => [gasStatement]))
    (E := fortranStatements footText) h.statements part_check ?_
  intro s hs w hw
  obtain ⟨-, -, hs⟩ := List.mem_flatMap.1 hs
  obtain rfl := List.mem_singleton.1 hs
  exact known_iff.1 gas_known w hw

/-- The text of `write_partitioning_section_fortran` (`/repo/Parse_eqn_file.py` 3203–3416), which no driver calls. -/
def allText (date : Str) (total bins species : ℕ) : Str :=
  let ρ : Hole → ℕ := fun h => match h with
    | .total => total
    | .bins => bins
    | .species => species
    | .cond => species
    | .cond1 => species + 1
  (allTop.map (lineText ρ) ++ createdLine date :: allRest.map (lineText ρ)).flatMap (fun l => l ++ ['\n'])

/-- The array that `write_partitioning_section_fortran` clears at the start. -/
def clearStatement : List Lexeme :=
  [.name (chars% "total_soa_mass_array"), .sym '(', .sym ':', .sym ')', .sym '=']

theorem all_facts : (decide (clearStatement ∈ (fortranStatements (lineText (fun _ => 0) (joinedPieces allRest))).drop 2) &&
    (fortranStatements (lineText (fun _ => 0) (joinedPieces allRest))).all (fun s =>
      match declaration s with
      | some p => !(decide ((chars% "total_soa_mass_array") ∈ p.1))
      | none => true)) = true := by decide +kernel

/-- **C87**: the file that `write_partitioning_section_fortran` writes cannot be compiled.  It uses an array
`total_SOA_mass_array` that it does not declare, whatever the numbers of bins and species. -/
theorem C87_uncalled {date : Str} (hd : '\n' ∉ date) (total bins species : ℕ) :
    ¬ NamesDeclared (chars% "dydt_partition") partitionArgs (allText date total bins species) := by
  obtain ⟨ρ, hρ⟩ : ∃ ρ : Hole → ℕ, allText date total bins species =
      (allTop.map (lineText ρ) ++ createdLine date :: allRest.map (lineText ρ)).flatMap (fun l => l ++ ['\n']) :=
    ⟨_, rfl⟩
  have h1 := Complete.of_pieces ρ (l := joinedPieces allTop) (by decide +kernel) (by decide +kernel)
  rw [show fortranStatements (lineText (fun _ => 0) (joinedPieces allTop)) = [] by decide +kernel] at h1
  have h := (h1.append (created_complete hd)).append
    (Complete.of_pieces ρ (l := joinedPieces allRest) (by decide +kernel) (by decide +kernel))
  have e : allText date total bins species = lineText ρ (joinedPieces allTop) ++ (createdLine date ++ ['\n']) ++
      lineText ρ (joinedPieces allRest) := by
    rw [hρ, List.flatMap_append, List.flatMap_cons, joinedPieces_text, joinedPieces_text]
    simp only [List.append_assoc]
  rw [← e] at h
  have hs := h.statements
  rw [List.nil_append, List.nil_append] at hs
  have hf := all_facts
  rw [Bool.and_eq_true, decide_eq_true_eq, List.all_eq_true, ← hs] at hf
  intro hn
  rcases NamesDeclared.used hn hf.1 (by decide) (w := chars% "total_soa_mass_array") (by decide) with h | h | ⟨d, hd, p, hp, hw⟩
  · exact absurd h (by decide +kernel)
  · exact absurd h (by decide +kernel)
  · have := hf.2 d hd
    rw [hp] at this
    simp [hw] at this

/-! ### The gas routines -/

/-- The inside of a statement: names that are known, signs, and line ends after `&`. -/
inductive Inner (D : List Str) : List Lexeme → Prop
  | nil : Inner D []
  | name {w : Str} {l : List Lexeme} (hw : w ∈ D) (h : Inner D l) : Inner D (.name w :: l)
  | sym {c : Char} {l : List Lexeme} (hc : c ≠ '&') (h : Inner D l) : Inner D (.sym c :: l)
  | cont {l : List Lexeme} (h : Inner D l) : Inner D (.sym '&' :: .newline :: l)

theorem Inner.append {D : List Str} {a b : List Lexeme} (ha : Inner D a) (hb : Inner D b) : Inner D (a ++ b) := by
  induction ha with
  | nil => exact hb
  | name hw _ ih => exact .name hw ih
  | sym hc _ ih => exact .sym hc ih
  | cont _ ih => exact .cont ih

theorem Inner.cut {D : List Str} {x : List Lexeme} (h : Inner D x) :
    ∃ s, (∀ y, Spec.cut (x ++ .newline :: y) = s :: Spec.cut y) ∧ ∀ w ∈ namesOf s, w ∈ D := by
  induction h with
  | nil => exact ⟨[], by simp [Spec.cut], by simp [namesOf]⟩
  | @name w l hw h ih =>
    obtain ⟨s, e, hs⟩ := ih
    refine ⟨.name w :: s, fun y => ?_, ?_⟩
    · obtain ⟨s', r, e1, e2⟩ := cut_cons (x := .name w) (l := l ++ .newline :: y) (by simp) (fun r h => by cases h)
      rw [e] at e1
      obtain ⟨rfl, rfl⟩ := List.cons.inj e1
      exact e2
    · intro v hv
      simp only [namesOf, List.filterMap_cons, List.mem_cons] at hv
      exact hv.elim (fun h => h ▸ hw) (hs v)
  | @sym c l hc h ih =>
    obtain ⟨s, e, hs⟩ := ih
    refine ⟨.sym c :: s, fun y => ?_, fun v hv => hs v (by simpa [namesOf] using hv)⟩
    obtain ⟨s', r, e1, e2⟩ := cut_cons (x := .sym c) (l := l ++ .newline :: y) (by simp)
      (fun r h => absurd (Lexeme.sym.inj h) hc)
    rw [e] at e1
    obtain ⟨rfl, rfl⟩ := List.cons.inj e1
    exact e2
  | cont h ih =>
    obtain ⟨s, e, hs⟩ := ih
    exact ⟨s, by simpa [Spec.cut] using e, hs⟩

/-- Not within a name or a comment. -/
def Quiet (m : Mode) : Prop := m = .blank ∨ m = .number

/-- Text inside a statement. -/
def Inside (D : List Str) (s : Str) : Prop := ∀ m, Quiet m → Inner D (given m s) ∧ Quiet (after m s)

theorem Inside.nil {D : List Str} : Inside D [] := fun _ h => ⟨.nil, h⟩

theorem Inside.append {D : List Str} {s t : Str} (hs : Inside D s) (ht : Inside D t) : Inside D (s ++ t) := by
  intro m hm
  obtain ⟨h1, h2⟩ := hs m hm
  obtain ⟨h3, h4⟩ := ht _ h2
  rw [given_append, after_append]
  exact ⟨h1.append h3, h4⟩

theorem Inside.flatten {D : List Str} {l : List Str} (h : ∀ s ∈ l, Inside D s) : Inside D l.flatten := by
  induction l with
  | nil => exact .nil
  | cons s l ih => exact (h s (by simp)).append (ih fun t ht => h t (List.mem_cons_of_mem _ ht))

theorem Inside.digits {D : List Str} {s : Str} (hs : s ≠ []) (h : ∀ c ∈ s, isDigit c = true) : Inside D s := by
  intro m hm
  have hf : m.free = true ∧ m ≠ .comment := by rcases hm with rfl | rfl <;> exact ⟨rfl, by simp⟩
  obtain ⟨e1, e2⟩ := digits_read hf.1 hs h
  rw [e1, e2, if_neg hf.2]
  exact ⟨.nil, .inr rfl⟩

theorem Inside.sign {D : List Str} {c : Char} (h1 : c ≠ '\n') (h2 : c ≠ '!') (h3 : wordChar c = false) (h4 : c ≠ '&') :
    Inside D [c] := by
  intro m hm
  have hf : m.flush = [] ∧ m ≠ .comment := by rcases hm with rfl | rfl <;> exact ⟨rfl, by simp⟩
  simp only [given, after, if_neg h1, if_neg hf.2, if_neg h2, h3, hf.1]
  refine ⟨?_, .inl rfl⟩
  by_cases hs : isSpace c
  · rw [if_neg (by simp), if_pos hs]; exact .nil
  · rw [if_neg (by simp), if_neg hs]; exact .sym h4 .nil

/-- A name, an opening bracket. -/
theorem Inside.opened {D : List Str} {c : Char} {w : Str} (hc : c.isAlpha = true)
    (hw : ∀ x ∈ w, wordChar x = true ∧ x ≠ '\n' ∧ x ≠ '!') (hD : lowChar c :: w.map lowChar ∈ D) :
    Inside D (c :: w ++ ['(']) := by
  have named : ∀ (w : Str), (∀ x ∈ w, wordChar x = true ∧ x ≠ '\n' ∧ x ≠ '!') → ∀ v : Str,
      given (.name v) (w ++ ['(']) = [.name (v ++ w.map lowChar), .sym '('] ∧
        after (.name v) (w ++ ['(']) = .blank := by
    intro w
    induction w with
    | nil => intro _ v; simp [given, after, Mode.flush, wordChar, isSpace]
    | cons x w ih =>
      intro h v
      obtain ⟨h1, h2, h3⟩ := h x (by simp)
      have := ih (fun y hy => h y (List.mem_cons_of_mem _ hy)) (v ++ [lowChar x])
      simp only [List.cons_append, given, after, if_neg h2, if_neg h3, h1, Mode.add]
      simpa using this
  have numbered : ∀ (w : Str), (∀ x ∈ w, wordChar x = true ∧ x ≠ '\n' ∧ x ≠ '!') →
      given .number (w ++ ['(']) = [.sym '('] ∧ after .number (w ++ ['(']) = .blank := by
    intro w
    induction w with
    | nil => intro _; simp [given, after, Mode.flush, wordChar, isSpace]
    | cons x w ih =>
      intro h
      obtain ⟨h1, h2, h3⟩ := h x (by simp)
      have := ih (fun y hy => h y (List.mem_cons_of_mem _ hy))
      simp only [List.cons_append, given, after, if_neg h2, if_neg h3, h1, Mode.add]
      simpa using this
  have hc' : wordChar c = true := by simp [wordChar, hc]
  have hcn : c ≠ '\n' ∧ c ≠ '!' := by
    constructor <;> rintro rfl <;> exact absurd hc (by decide)
  intro m hm
  rcases hm with rfl | rfl
  · obtain ⟨e1, e2⟩ := named w hw [lowChar c]
    simp only [List.cons_append, given, after, if_neg hcn.1, if_neg hcn.2, hc', Mode.add, hc]
    simp only [if_true, reduceCtorEq, if_false, e1, e2]
    exact ⟨.name hD (.sym (by decide) .nil), .inl rfl⟩
  · obtain ⟨e1, e2⟩ := numbered w hw
    simp only [List.cons_append, given, after, if_neg hcn.1, if_neg hcn.2, hc', Mode.add]
    simp only [if_true, reduceCtorEq, if_false, e1, e2]
    exact ⟨.sym (by decide) .nil, .inl rfl⟩

end PyBox
