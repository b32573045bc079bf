import Verif.Parse.Number
import Verif.Spec.Reaction

/-!
# The documented text layout of a mechanism, and what the parser does with it
-/

namespace PyBox

namespace Spec

/-- A term with the blanks around it. -/
structure PadTerm where
  left : Str
  word : Str
  right : Str

/-- `A + B + C` with arbitrary padding. -/
def joinPlus : List Str → Str
  | [] => []
  | [t] => t
  | t :: ts => t ++ '+' :: joinPlus ts

def PadTerm.text (t : PadTerm) : Str := t.left ++ t.word ++ t.right

/-- One reaction as laid out in a file: `{label} A + B = C + D : rate ;` followed by arbitrary
text up to the next brace. -/
structure Layout where
  label : Str
  reactants : List PadTerm
  products : List PadTerm
  rate : Str
  gap : Str

/-- `A + B = C + D : rate` -/
def Layout.body (r : Layout) : Str :=
  joinPlus (r.reactants.map PadTerm.text) ++ '=' :: joinPlus (r.products.map PadTerm.text) ++
    ':' :: r.rate

def Layout.text (r : Layout) : Str := '{' :: r.label ++ '}' :: r.body ++ ';' :: r.gap

/-- A whole file. -/
def render (rs : List Layout) : Str := rs.flatMap Layout.text

/-- Blank or tab. -/
def isPad (c : Char) : Prop := c = ' ' ∨ c = '\t'

/-- A term: no white space, none of the delimiters of the layout. -/
def WordOk (w : Str) : Prop :=
  w ≠ [] ∧ ∀ c ∈ w, isSpace c = false ∧ c ≠ '+' ∧ c ≠ '=' ∧ c ≠ ':' ∧ c ≠ ';'

def PadTerm.Ok (t : PadTerm) : Prop :=
  (∀ c ∈ t.left, isPad c) ∧ (∀ c ∈ t.right, isPad c) ∧ WordOk t.word

/-- Only blanks where a product could stand, as in `O + O3 = : rate`. -/
def PadTerm.Blank (t : PadTerm) : Prop :=
  (∀ c ∈ t.left, isPad c) ∧ (∀ c ∈ t.right, isPad c) ∧ t.word = []

/-- A well-formed layout (without line breaks; see `C04` for those). -/
structure Layout.Ok (r : Layout) : Prop where
  label : '}' ∉ r.label
  reactants_ne : r.reactants ≠ []
  products_ne : r.products ≠ []
  reactants : ∀ t ∈ r.reactants, t.Ok
  products : ∀ t ∈ r.products, t.Ok ∨ t.Blank
  rate : ∀ c ∈ r.rate, c ≠ ';' ∧ c ≠ '{'
  gap : ∀ c ∈ r.gap, c ≠ '{' ∧ c ≠ '}'
  braces : ∀ t ∈ r.reactants ++ r.products, '{' ∉ t.word
  noNL : '\n' ∉ r.text

end Spec

open Spec

theorem joinPlus_cons (t : Str) (ts : List Str) (h : ts ≠ []) :
    joinPlus (t :: ts) = t ++ '+' :: joinPlus ts := by
  cases ts with
  | nil => exact absurd rfl h
  | cons u us => rfl

theorem mem_joinPlus (ts : List Str) (c : Char) : c ∈ joinPlus ts → c = '+' ∨ ∃ t ∈ ts, c ∈ t := by
  induction ts with
  | nil => simp [joinPlus]
  | cons t ts ih =>
    by_cases h : ts = []
    · subst h; exact fun h => .inr ⟨t, by simp, by simpa [joinPlus] using h⟩
    · rw [joinPlus_cons _ _ h, List.mem_append, List.mem_cons]
      rintro (h1 | h1 | h1)
      · exact .inr ⟨t, by simp, h1⟩
      · exact .inl h1
      · rcases ih h1 with h2 | ⟨u, hu, h2⟩
        · exact .inl h2
        · exact .inr ⟨u, by simp [hu], h2⟩

theorem splitOn_joinPlus (ts : List Str) (hne : ts ≠ []) (h : ∀ t ∈ ts, '+' ∉ t) :
    splitOn '+' (joinPlus ts) = ts := by
  induction ts with
  | nil => exact absurd rfl hne
  | cons t ts ih =>
    by_cases h' : ts = []
    · subst h'; exact splitOn_of_not_mem _ _ (h t (by simp))
    · rw [joinPlus_cons _ _ h', splitOn_append _ _ _ (h t (by simp)),
        ih h' (fun u hu => h u (List.mem_cons_of_mem _ hu))]

theorem removeChar_joinPlus (c : Char) (hc : c ≠ '+') (ts : List Str) :
    removeChar c (joinPlus ts) = joinPlus (ts.map (removeChar c)) := by
  induction ts with
  | nil => rfl
  | cons t ts ih =>
    by_cases h : ts = []
    · subst h; rfl
    · rw [joinPlus_cons _ _ h, List.map_cons, joinPlus_cons _ _ (by simpa using h), removeChar_append,
        ← ih]
      congr 1
      simp [removeChar, Ne.symm hc]

theorem isPad_isSpace {c : Char} (h : isPad c) : isSpace c = true := by
  rcases h with rfl | rfl <;> decide

theorem mem_removeChar {c a : Char} {s : Str} : a ∈ removeChar c s ↔ a ∈ s ∧ a ≠ c := by
  simp [removeChar]

theorem words_term {t : PadTerm} (h : t.Ok) :
    words (stripBy (· == ' ') (removeChar '\t' t.text)) = [t.word] := by
  obtain ⟨hl, hr, hne, hw⟩ := h
  rw [words_stripBy _ isSpace_blank, PadTerm.text, removeChar_append, removeChar_append]
  rw [removeChar_of_not_mem '\t' t.word]
  · refine words_single _ _ _ ?_ ?_ hne (fun c hc => (hw c hc).1)
    · intro c hc; exact isPad_isSpace (hl c (mem_removeChar.1 hc).1)
    · intro c hc; exact isPad_isSpace (hr c (mem_removeChar.1 hc).1)
  · intro h
    have := (hw _ h).1
    revert this; decide

theorem mapM_firstWord (l : List Str) (ws : List Str) (h : l.map words = ws.map (fun w => [w])) :
    l.mapM firstWord = .ok ws := by
  induction l generalizing ws with
  | nil => cases ws with
    | nil => rfl
    | cons w ws => simp at h
  | cons x l ih =>
    cases ws with
    | nil => simp at h
    | cons w ws =>
      simp only [List.map_cons, List.cons.injEq] at h
      rw [List.mapM_cons, ih ws h.2]
      simp only [firstWord, h.1]
      rfl

theorem words_blank {t : PadTerm} (h : t.Blank) :
    words (stripBy (· == ' ') (removeChar '\t' t.text)) = [] := by
  obtain ⟨hl, hr, hw⟩ := h
  rw [words_stripBy _ isSpace_blank, words_eq_nil_iff]
  intro c hc
  have := (mem_removeChar.1 hc).1
  rw [PadTerm.text, hw, List.append_nil, List.mem_append] at this
  rcases this with h | h
  · exact isPad_isSpace (hl c h)
  · exact isPad_isSpace (hr c h)

theorem filterMap_head (ts : List PadTerm) (h : ∀ t ∈ ts, t.Ok ∨ t.Blank) :
    (((ts.map PadTerm.text).map (removeChar '\t')).map (stripBy (· == ' '))).filterMap
      (fun p => (words p).head?) = (ts.filter (fun t => t.word ≠ [])).map PadTerm.word := by
  induction ts with
  | nil => rfl
  | cons t ts ih =>
    have ih' := ih (fun u hu => h u (List.mem_cons_of_mem _ hu))
    rcases h t (by simp) with h1 | h1
    · simp only [List.map_cons, List.filterMap_cons, words_term h1, List.head?_cons, ih']
      rw [List.filter_cons_of_pos (by simpa using h1.2.2.1), List.map_cons]
    · simp only [List.map_cons, List.filterMap_cons, words_blank h1, List.head?_nil, ih']
      rw [List.filter_cons_of_neg (by simp [h1.2.2])]

theorem removeSpace_removeTab (s : Str) : removeSpace (removeChar '\t' s) = removeSpace s := by
  rw [removeSpace_eq, removeSpace_eq]
  unfold removeChar
  rw [List.filter_filter]
  congr 1
  funext c
  by_cases h : c = '\t'
  · subst h; decide
  · simp [h]

theorem term_no_delim {t : PadTerm} (h : t.Ok ∨ t.Blank) {d : Char}
    (hd : d = '+' ∨ d = '=' ∨ d = ':' ∨ d = ';') : d ∉ t.text := by
  have hl : ∀ c ∈ t.left, isPad c := by rcases h with h | h <;> exact h.1
  have hr : ∀ c ∈ t.right, isPad c := by rcases h with h | h <;> exact h.2.1
  have hw : ∀ c ∈ t.word, isSpace c = false ∧ c ≠ '+' ∧ c ≠ '=' ∧ c ≠ ':' ∧ c ≠ ';' := by
    rcases h with h | h
    · exact h.2.2.2
    · rw [h.2.2]; simp
  rw [PadTerm.text, List.mem_append, List.mem_append]
  rintro ((h | h) | h)
  · rcases hl _ h with e | e <;> subst e <;> revert hd <;> decide
  · have := hw _ h
    rcases hd with e | e | e | e
    · exact this.2.1 e
    · exact this.2.2.1 e
    · exact this.2.2.2.1 e
    · exact this.2.2.2.2 e
  · rcases hr _ h with e | e <;> subst e <;> revert hd <;> decide

theorem joinPlus_no_delim {ts : List PadTerm} (h : ∀ t ∈ ts, t.Ok ∨ t.Blank) {d : Char}
    (hd : d = '=' ∨ d = ':' ∨ d = ';') : d ∉ joinPlus (ts.map PadTerm.text) := by
  intro hm
  rcases mem_joinPlus _ _ hm with e | ⟨u, hu, hc⟩
  · subst e; revert hd; decide
  · rw [List.mem_map] at hu
    obtain ⟨t, ht, rfl⟩ := hu
    exact term_no_delim (h t ht) (.inr hd) hc

/-- What the textual stage makes of a laid-out reaction. -/
theorem parseEqn_layout {r : Layout} (h : r.Ok) :
    parseEqn r.body = .ok
      { reactants := r.reactants.map (fun t => parseTerm t.word)
        products := (r.products.filter (fun t => t.word ≠ [])).map (fun t => parseTerm t.word)
        rate := removeSpace r.rate } := by
  have hL : '=' ∉ removeChar '\t' (joinPlus (r.reactants.map PadTerm.text)) := fun hm =>
    joinPlus_no_delim (fun t ht => .inl (h.reactants t ht)) (.inl rfl) (mem_removeChar.1 hm).1
  have hLc : ':' ∉ removeChar '\t' (joinPlus (r.reactants.map PadTerm.text)) := fun hm =>
    joinPlus_no_delim (fun t ht => .inl (h.reactants t ht)) (.inr (.inl rfl)) (mem_removeChar.1 hm).1
  have hRc : ':' ∉ removeChar '\t' (joinPlus (r.products.map PadTerm.text)) := fun hm =>
    joinPlus_no_delim h.products (.inr (.inl rfl)) (mem_removeChar.1 hm).1
  have hbody : removeChar '\t' r.body =
      (removeChar '\t' (joinPlus (r.reactants.map PadTerm.text)) ++
        '=' :: removeChar '\t' (joinPlus (r.products.map PadTerm.text))) ++
        ':' :: removeChar '\t' r.rate := by
    rw [Layout.body, removeChar_append, removeChar_append]
    rfl
  unfold parseEqn
  simp only [hbody]
  rw [split1_append ':' _ _ (by
    rw [List.mem_append, List.mem_cons]
    rintro (h1 | h1 | h1)
    · exact hLc h1
    · revert h1; decide
    · exact hRc h1)]
  simp only
  rw [split1_append '=' _ _ hL]
  simp only
  rw [removeChar_joinPlus _ (by decide), removeChar_joinPlus _ (by decide),
    splitOn_joinPlus _ (by simpa using h.reactants_ne) (by
      intro t ht
      simp only [List.map_map, List.mem_map] at ht
      obtain ⟨u, hu, rfl⟩ := ht
      exact fun hm => term_no_delim (.inl (h.reactants u hu)) (.inl rfl) (mem_removeChar.1 hm).1),
    splitOn_joinPlus _ (by simpa using h.products_ne) (by
      intro t ht
      simp only [List.map_map, List.mem_map] at ht
      obtain ⟨u, hu, rfl⟩ := ht
      exact fun hm => term_no_delim (h.products u hu) (.inl rfl) (mem_removeChar.1 hm).1)]
  rw [mapM_firstWord _ (r.reactants.map PadTerm.word), filterMap_head _ h.products,
    removeSpace_strip, removeSpace_removeTab]
  · simp [Function.comp_def, bind, Except.bind, pure, Except.pure]
  · simp only [List.map_map]
    apply List.map_congr_left
    intro t ht
    exact words_term (h.reactants t ht)

/-! ### Scanning a rendered file -/

theorem scan_skip (o c : Char) (p s : Str) (h : o ∉ p) : scan o c none (p ++ s) = scan o c none s := by
  induction p with
  | nil => rfl
  | cons a p ih =>
    simp only [List.mem_cons, not_or] at h
    rw [List.cons_append, scan, if_neg (fun e : a = o => h.1 e.symm), ih h.2]

theorem scan_take (o c : Char) (p s : Str) (h : c ∉ p) :
    scan o c none (o :: p ++ c :: s) = p :: scan o c none s := by
  rw [List.cons_append, scan, if_pos rfl, scan_some, split1_append _ _ _ h]
  simp

theorem layout_body_no_semicolon {r : Layout} (h : r.Ok) : ';' ∉ r.body := by
  rw [Layout.body, List.mem_append, List.mem_append, List.mem_cons, List.mem_cons]
  rintro ((h1 | h1 | h1) | h1 | h1)
  · exact joinPlus_no_delim (fun t ht => .inl (h.reactants t ht)) (.inr (.inr rfl)) h1
  · revert h1; decide
  · exact joinPlus_no_delim h.products (.inr (.inr rfl)) h1
  · revert h1; decide
  · exact (h.rate _ h1).1 rfl

theorem layout_body_no_brace {r : Layout} (h : r.Ok) : '{' ∉ r.body := by
  have haux : ∀ ts : List PadTerm, (∀ t ∈ ts, t ∈ r.reactants ++ r.products) → (∀ t ∈ ts, t.Ok ∨ t.Blank) →
      '{' ∉ joinPlus (ts.map PadTerm.text) := by
    intro ts hts hok hm
    rcases mem_joinPlus _ _ hm with e | ⟨u, hu, hc⟩
    · revert e; decide
    · rw [List.mem_map] at hu
      obtain ⟨t, ht, rfl⟩ := hu
      rw [PadTerm.text, List.mem_append, List.mem_append] at hc
      rcases hc with (hc | hc) | hc
      · have hl : ∀ c ∈ t.left, isPad c := by rcases hok t ht with h | h <;> exact h.1
        rcases hl _ hc with e | e <;> revert e <;> decide
      · exact h.braces t (hts t ht) hc
      · have hr : ∀ c ∈ t.right, isPad c := by rcases hok t ht with h | h <;> exact h.2.1
        rcases hr _ hc with e | e <;> revert e <;> decide
  rw [Layout.body, List.mem_append, List.mem_append, List.mem_cons, List.mem_cons]
  rintro ((h1 | h1 | h1) | h1 | h1)
  · exact haux _ (fun t ht => by simp [ht]) (fun t ht => .inl (h.reactants t ht)) h1
  · revert h1; decide
  · exact haux _ (fun t ht => by simp [ht]) h.products h1
  · revert h1; decide
  · exact (h.rate _ h1).2 rfl

theorem bodies_render (rs : List Layout) (h : ∀ r ∈ rs, r.Ok) :
    scan '}' ';' none (render rs) = rs.map Layout.body := by
  induction rs with
  | nil => rfl
  | cons r rs ih =>
    have hr := h r (by simp)
    have : render (r :: rs) = ('{' :: r.label) ++ ('}' :: r.body ++ ';' :: (r.gap ++ render rs)) := by
      simp [render, Layout.text]
    rw [this, scan_skip, scan_take _ _ _ _ (layout_body_no_semicolon hr), scan_skip,
      ih (fun r hr => h r (List.mem_cons_of_mem _ hr)), List.map_cons]
    · intro hm; exact (hr.gap _ hm).2 rfl
    · rw [List.mem_cons]
      rintro (h1 | h1)
      · revert h1; decide
      · exact hr.label h1

theorem labels_render (rs : List Layout) (h : ∀ r ∈ rs, r.Ok) :
    scan '{' '}' none (render rs) = rs.map Layout.label := by
  induction rs with
  | nil => rfl
  | cons r rs ih =>
    have hr := h r (by simp)
    have : render (r :: rs) = '{' :: r.label ++ '}' :: ((r.body ++ ';' :: r.gap) ++ render rs) := by
      simp [render, Layout.text]
    rw [this, scan_take _ _ _ _ hr.label, scan_skip,
      ih (fun r hr => h r (List.mem_cons_of_mem _ hr)), List.map_cons]
    rw [List.mem_append, List.mem_cons]
    rintro (h1 | h1 | h1)
    · exact layout_body_no_brace hr h1
    · revert h1; decide
    · exact (hr.gap _ h1).1 rfl

theorem render_no_newline (rs : List Layout) (h : ∀ r ∈ rs, r.Ok) : '\n' ∉ render rs := by
  rw [render, List.mem_flatMap]
  rintro ⟨r, hr, hm⟩
  exact (h r hr).noNL hm

theorem mapM_except {α β : Type} (f : α → Except PyErr β) (g : α → β) (l : List α)
    (h : ∀ a ∈ l, f a = .ok (g a)) : l.map f = (l.map g).map Except.ok := by
  rw [List.map_map]
  exact List.map_congr_left h

/-- Parsing a rendered file, for any last label that reads as the number of reactions. -/
theorem extract_render (rs : List Layout) (h : ∀ r ∈ rs, r.Ok) {last : Layout}
    (hl : rs.getLast? = some last)
    (hn : pyInt (stripBy (· == '.') last.label) = .ok (rs.length : Int)) :
    extractMechanism (render rs) = .ok
      { tables := build (rs.map fun r =>
          { reactants := r.reactants.map (fun t => parseTerm t.word)
            products := (r.products.filter (fun t => t.word ≠ [])).map (fun t => parseTerm t.word)
            rate := removeSpace r.rate })
        equations := rs.length } := by
  have hnl := render_no_newline rs h
  rw [extract_ok_iff]
  refine ⟨last.label, rs.length, _, ?_, hn, ?_, rfl⟩
  · rw [removeChar_of_not_mem _ _ hnl, labels_eq _ hnl, labels_render rs h, List.getLast?_map, hl]
    rfl
  · rw [removeChar_of_not_mem _ _ hnl, bodies_eq _ hnl, bodies_render rs h, parseAll_ok_iff]
    refine ⟨by simp, ?_⟩
    rw [Int.toNat_natCast, List.take_of_length_le (by simp), List.map_map]
    rw [List.map_map]
    apply List.map_congr_left
    intro r hr
    exact parseEqn_layout (h r hr)

end PyBox
