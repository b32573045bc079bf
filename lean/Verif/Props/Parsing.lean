import Verif.Parse.Species
import Verif.Parse.Tables
import Verif.Parse.Gain
import Verif.Parse.Eqn

/-!
# C01–C09: the mechanism parser
-/

namespace PyBox

namespace Spec

/-- The equation bodies of a file: the texts between a closing brace and the next semicolon. -/
def bodyTexts (text : Str) : List Str := scan '}' ';' none (removeChar '\n' text)

/-- The brace labels of a file. -/
def labelTexts (text : Str) : List Str := scan '{' '}' none (removeChar '\n' text)

/-- `qs` are the first `n` reactions written in the file, each split into terms. What splitting
means is pinned down by C03, C07 and C08. -/
def Reads (text : Str) (n : Nat) (qs : List RawEqn) : Prop :=
  n ≤ (bodyTexts text).length ∧ ((bodyTexts text).take n).map parseEqn = qs.map Except.ok

theorem Reads.unique {text : Str} {n : Nat} {qs qs' : List RawEqn} (h : Reads text n qs)
    (h' : Reads text n qs') : qs = qs' := by
  have : qs.map (Except.ok (ε := PyErr)) = qs'.map Except.ok := h.2.symm.trans h'.2
  exact List.map_injective_iff.2 (fun a b h => by injection h) this

end Spec

open Spec

theorem extract_reads {text : Str} {m : Mechanism} (h : extractMechanism text = .ok m) :
    ∃ qs, Reads text m.equations.toNat qs ∧ m.tables = build qs ∧
      qs.length = m.equations.toNat := by
  rw [extract_ok_iff] at h
  obtain ⟨l, n, qs, -, -, h3, rfl⟩ := h
  refine ⟨qs, ?_, rfl, parseAll_length _ _ _ h3⟩
  rw [parseAll_ok_iff, bodies_eq _ (not_mem_removeChar _ _)] at h3
  exact h3

theorem extract_tables {text : Str} {m : Mechanism} (h : extractMechanism text = .ok m)
    {qs : List RawEqn} (hq : Reads text m.equations.toNat qs) :
    m.tables = build qs ∧ qs.length = m.equations.toNat := by
  obtain ⟨qs', h1, h2, h3⟩ := extract_reads h
  rw [hq.unique h1]; exact ⟨h2, h3⟩

/-! ## A sample file used by the examples -/

/-- Two reactions with padding, a tab, a repeated reactant, a photon and a line break. -/
def sampleText : Str :=
  "{1.} NO + O3 = NO2 + O2 : 1.4D-12*EXP(-1310/TEMP) ;\n{2.} NO2\t+ hv = NO+O : J(4) ; {3.} HO2+HO2=H2O2:KMT ;".toList

def sampleReactions : List RawEqn :=
  [{ reactants := [(1, "NO".toList), (1, "O3".toList)], products := [(1, "NO2".toList), (1, "O2".toList)],
     rate := "1.4D-12*EXP(-1310/TEMP)".toList },
   { reactants := [(1, "NO2".toList), (1, "hv".toList)], products := [(1, "NO".toList), (1, "O".toList)],
     rate := "J(4)".toList },
   { reactants := [(1, "HO2".toList), (1, "HO2".toList)], products := [(1, "H2O2".toList)],
     rate := "KMT".toList }]

theorem sample_parses :
    extractMechanism sampleText = .ok { tables := build sampleReactions, equations := 3 } := by
  rw [extract_ok_iff]
  refine ⟨"3.".toList, 3, sampleReactions, ?_, by decide +kernel, ?_, rfl⟩
  · rw [labels_eq _ (not_mem_removeChar _ _)]; decide +kernel
  · rw [bodies_eq _ (not_mem_removeChar _ _)]; decide +kernel

theorem sample_reads : Reads sampleText 3 sampleReactions := by
  unfold Reads bodyTexts; decide +kernel

/-! ## C01 -/

/-- C01: the two species maps are mutually inverse. -/
theorem C01_inverse {text : Str} {m : Mechanism} (h : extractMechanism text = .ok m) (s : Str)
    (i : Nat) : m.tables.index.get? s = some i ↔ m.tables.species.get? i = some s := by
  obtain ⟨qs, -, h2, -⟩ := extract_reads h
  have hi := spInv_build qs
  rw [h2, hi.index_eq, hi.species_eq, zipIdx_get? _ hi.nodup, zipIdx_swap_get?]

/-- C01: the indices used are exactly `0 … n-1`, where `n` is the number of entries of the species
table. -/
theorem C01_indices {text : Str} {m : Mechanism} (h : extractMechanism text = .ok m) (i : Nat) :
    (∃ s, m.tables.index.get? s = some i) ↔ i < m.tables.species.length := by
  simp only [C01_inverse h]
  obtain ⟨qs, -, h2, -⟩ := extract_reads h
  have hi := spInv_build qs
  rw [h2, hi.species_eq]
  simp only [zipIdx_swap_get?, List.length_map, List.length_zipIdx]
  constructor
  · rintro ⟨s, hs⟩; exact (List.getElem?_eq_some_iff.1 hs).1
  · intro hlt; exact ⟨_, List.getElem?_eq_getElem hlt⟩

/-- C01: the photon marker has no index. -/
theorem C01_no_photon {text : Str} {m : Mechanism} (h : extractMechanism text = .ok m) :
    m.tables.index.get? "hv".toList = none := by
  obtain ⟨qs, -, h2, -⟩ := extract_reads h
  have hi := spInv_build qs
  rw [h2, hi.index_eq, Dict.get?_eq_none_iff, zipIdx_keys, mem_registered]
  intro hm
  simp only [allOccurrences, occurrences, List.mem_flatMap, List.mem_filter] at hm
  obtain ⟨q, -, -, hne⟩ := hm
  revert hne; decide

/-- C01: a species has a smaller index than another if and only if it appears earlier in the
file. -/
theorem C01_order {text : Str} {m : Mechanism} (h : extractMechanism text = .ok m)
    {qs : List RawEqn} (hq : Reads text m.equations.toNat qs) {s s' : Str} {i i' : Nat}
    (hs : m.tables.index.get? s = some i) (hs' : m.tables.index.get? s' = some i') :
    i < i' ↔ (allOccurrences qs).idxOf s < (allOccurrences qs).idxOf s' := by
  obtain ⟨h2, -⟩ := extract_tables h hq
  have hi := spInv_build qs
  rw [h2, hi.index_eq, zipIdx_get? _ hi.nodup] at hs hs'
  have hord := registered_order qs
  rw [List.pairwise_iff_getElem] at hord
  obtain ⟨hl, he⟩ := List.getElem?_eq_some_iff.1 hs
  obtain ⟨hl', he'⟩ := List.getElem?_eq_some_iff.1 hs'
  constructor
  · intro hlt
    have := hord i i' hl hl' hlt
    rwa [he, he'] at this
  · intro hlt
    by_contra hcon
    rcases Nat.lt_or_eq_of_le (Nat.le_of_not_lt hcon) with h3 | h3
    · have := hord i' i hl' hl h3
      rw [he, he'] at this
      omega
    · subst h3
      rw [he] at he'; subst he'
      omega

example : extractMechanism sampleText = .ok ⟨build sampleReactions, 3⟩ ∧
    (build sampleReactions).index.get? "O".toList = some 4 ∧
    (build sampleReactions).species.length = 7 ∧
    Reads sampleText 3 sampleReactions :=
  ⟨sample_parses, by decide +kernel, by decide +kernel, sample_reads⟩

/-! ## C02 -/

/-- Names of the species that take part in reaction `e`. -/
def Spec.occursIn (qs : List RawEqn) (e : Nat) (s : Str) : Prop :=
  ∃ q, qs[e]? = some q ∧ s ∈ occurrences q

theorem mem_occurrences_left {q : RawEqn} {s : Str} (h : s ∈ names (nonHv q.reactants)) :
    s ∈ occurrences q := by
  simp only [names, nonHv, List.mem_map, List.mem_filter] at h
  obtain ⟨p, ⟨h1, h2⟩, rfl⟩ := h
  simp only [occurrences, List.mem_filter, List.mem_append, names, List.mem_map]
  exact ⟨.inl ⟨p, h1, rfl⟩, by simpa using h2⟩

theorem mem_occurrences_right {q : RawEqn} {s : Str} (h : s ∈ names (nonHv q.products)) :
    s ∈ occurrences q := by
  simp only [names, nonHv, List.mem_map, List.mem_filter] at h
  obtain ⟨p, ⟨h1, h2⟩, rfl⟩ := h
  simp only [occurrences, List.mem_filter, List.mem_append, names, List.mem_map]
  exact ⟨.inr ⟨p, h1, rfl⟩, by simpa using h2⟩

theorem indexed_iff (qs : List RawEqn) (s : Str) :
    (∃ i, (build qs).index.get? s = some i) ↔ ∃ q ∈ qs, s ∈ occurrences q := by
  have hi := spInv_build qs
  rw [hi.index_eq]
  rw [← Option.isSome_iff_exists, Dict.get?_isSome_iff, zipIdx_keys, mem_registered, allOccurrences,
    List.mem_flatMap]

theorem Spec.Reads.reactants_ne {text : Str} {n : Nat} {qs : List RawEqn} (h : Reads text n qs)
    {q : RawEqn} (hq : q ∈ qs) : q.reactants ≠ [] := by
  have : Except.ok (ε := PyErr) q ∈ qs.map Except.ok := List.mem_map_of_mem hq
  rw [← h.2, List.mem_map] at this
  obtain ⟨b, -, hb⟩ := this
  exact parseEqn_reactants_ne hb

/-- C02: everything named in the reaction tables has an index. The key `hv` can occur in the gain
table (with an empty entry) without being a species. -/
theorem C02_tables_indexed {text : Str} {m : Mechanism} (h : extractMechanism text = .ok m) (s : Str)
    (hs : s ∈ m.tables.loss.keys ∨ (s ∈ m.tables.gain.keys ∧ s ≠ "hv".toList) ∨
      ∃ e, s ∈ (m.tables.reactants.getD e []).values) :
    ∃ i, m.tables.index.get? s = some i := by
  obtain ⟨qs, h1, h2, -⟩ := extract_reads h
  rw [h2] at hs ⊢
  rw [indexed_iff]
  rcases hs with hs | ⟨hs, hne⟩ | ⟨e, hs⟩
  · rw [mem_keys_build_loss] at hs
    obtain ⟨q, hq, hs⟩ := hs
    exact ⟨q, hq, mem_occurrences_left hs⟩
  · rw [mem_keys_build_gain] at hs
    obtain ⟨q, hq, ⟨-, hs⟩ | hs⟩ := hs
    · cases hlast : q.reactants.getLast? with
      | none => exact absurd (by simpa using hlast) (h1.reactants_ne hq)
      | some p =>
        refine ⟨q, hq, ?_⟩
        have : s = p.2 := by rw [hs, lastReactant, hlast]; rfl
        subst this
        simp only [occurrences, List.mem_filter, List.mem_append, names, List.mem_map]
        exact ⟨.inl ⟨p, List.mem_of_getLast? hlast, rfl⟩, decide_eq_true hne⟩
    · exact ⟨q, hq, mem_occurrences_right hs⟩
  · rw [getD_build_reactants] at hs
    cases hq : qs[e]? with
    | none => rw [hq] at hs; simp [Dict.values] at hs
    | some q =>
      rw [hq] at hs
      simp only [Option.map_some, Option.getD_some, reactantItems_values] at hs
      exact ⟨q, List.mem_of_getElem? hq, mem_occurrences_left hs⟩

/-- C02: a species has an index exactly when it is written in one of the reactions counted by the
result. -/
theorem C02_indexed_iff {text : Str} {m : Mechanism} (h : extractMechanism text = .ok m)
    {qs : List RawEqn} (hq : Reads text m.equations.toNat qs) (s : Str) :
    (∃ i, m.tables.index.get? s = some i) ↔ ∃ e, e < m.equations.toNat ∧ occursIn qs e s := by
  obtain ⟨h2, h3⟩ := extract_tables h hq
  rw [h2, indexed_iff]
  constructor
  · rintro ⟨q, hq, hs⟩
    obtain ⟨e, he⟩ := List.mem_iff_getElem?.1 hq
    exact ⟨e, by rw [← h3]; exact (List.getElem?_eq_some_iff.1 he).1, q, he, hs⟩
  · rintro ⟨e, -, q, he, hs⟩
    exact ⟨q, List.mem_of_getElem? he, hs⟩

example : Reads sampleText 3 sampleReactions ∧ occursIn sampleReactions 2 "H2O2".toList ∧
    ¬ occursIn sampleReactions 1 "hv".toList :=
  ⟨sample_reads, ⟨_, rfl, by decide +kernel⟩, by
    rintro ⟨q, hq, hs⟩
    simp only [sampleReactions, List.getElem?_cons_succ, List.getElem?_cons_zero, Option.some.injEq] at hq
    subst hq
    revert hs; decide +kernel⟩

/-! ## C03 -/

/-- A name: a term that does not begin like a number. -/
def Spec.NameOk (w : Str) : Prop := ∀ a t, w = a :: t → Re.numStart a = false

/-- The reaction that a coefficient-free layout stands for. -/
def Spec.Layout.reaction (r : Layout) : RawEqn :=
  { reactants := r.reactants.map (fun t => (1, t.word))
    products := (r.products.filter (fun t => t.word ≠ [])).map (fun t => (1, t.word))
    rate := r.rate.filter (fun c => !isSpace c) }

/-- C03: parsing a file in the documented layout, with any padding and any labels except the last,
which is the number of reactions followed by a dot, gives back exactly the reactions: their number,
the reactants of each in order, the rate expressions without white space; and the reactions it was
read from are those written. -/
theorem C03_round_trip (rs : List Layout) (hok : ∀ r ∈ rs, r.Ok)
    (hnames : ∀ r ∈ rs, ∀ t ∈ r.reactants ++ r.products, NameOk t.word)
    {last : Layout} (hl : rs.getLast? = some last)
    (hlabel : last.label = Nat.toDigits 10 rs.length ++ ['.']) :
    ∃ m, extractMechanism (render rs) = .ok m ∧ m.equations = rs.length ∧
      Reads (render rs) rs.length (rs.map Layout.reaction) ∧
      m.tables.rate.keys = List.range rs.length ∧
      (∀ e r, rs[e]? = some r →
        m.tables.rate.get? e = some (r.rate.filter (fun c => !isSpace c)) ∧
        (m.tables.reactants.getD e []).values =
          (r.reactants.map PadTerm.word).filter (fun w => w ≠ "hv".toList)) ∧
      (∀ e, rs.length ≤ e → m.tables.rate.get? e = none ∧ m.tables.reactants.getD e [] = []) := by
  have hint : pyInt (stripBy (· == '.') last.label) = .ok (rs.length : Int) := by
    have : stripBy (· == '.') (Nat.toDigits 10 rs.length ++ ['.']) = Nat.toDigits 10 rs.length := by
      have := stripBy_padded (· == '.') [] (Nat.toDigits 10 rs.length) ['.'] (by simp) (by simp) (by
        intro c hc
        have := isDigit_toDigits _ c hc
        simp only [beq_eq_false_iff_ne]
        exact not_isDigit_of (by decide) this)
      simpa using this
    rw [hlabel, this, pyInt_toDigits]
  have hraw : (rs.map fun r : Layout =>
      ({ reactants := r.reactants.map (fun t => parseTerm t.word)
         products := (r.products.filter (fun t => t.word ≠ [])).map (fun t => parseTerm t.word)
         rate := removeSpace r.rate } : RawEqn)) = rs.map Layout.reaction := by
    apply List.map_congr_left
    intro r hr
    unfold Layout.reaction
    congr 1
    · apply List.map_congr_left
      intro t ht
      exact parseTerm_name _ (hnames r hr t (by simp [ht]))
    · apply List.map_congr_left
      intro t ht
      exact parseTerm_name _ (hnames r hr t (List.mem_append_right _ (List.mem_filter.1 ht).1))
    · exact removeSpace_eq _
  have hex := extract_render rs hok hl hint
  rw [hraw] at hex
  refine ⟨_, hex, rfl, ?_, ?_, ?_, ?_⟩
  · have hnl := render_no_newline rs hok
    unfold Reads bodyTexts
    rw [removeChar_of_not_mem _ _ hnl, bodies_render rs hok]
    refine ⟨by simp, ?_⟩
    rw [List.take_of_length_le (by simp), ← hraw, List.map_map, List.map_map]
    exact List.map_congr_left (fun r hr => parseEqn_layout (hok r hr))
  · simp [keys_build_rate]
  · intro e r hr
    dsimp only
    constructor
    · rw [get?_build_rate, List.getElem?_map, hr]; rfl
    · rw [getD_build_reactants, List.getElem?_map, hr]
      simp only [Option.map_some, Option.getD_some, reactantItems_values, nonHv, names, Layout.reaction,
        List.filter_map, List.map_map, Function.comp_def]
      rfl
  · intro e he
    dsimp only
    have : (rs.map Layout.reaction)[e]? = none := by simp [he]
    rw [get?_build_rate, getD_build_reactants, this]
    exact ⟨rfl, rfl⟩

/-- A layout with padding, a blank product list and digits in names. -/
def sampleLayouts : List Layout :=
  [{ label := "x".toList
     reactants := [⟨" ".toList, "O".toList, " ".toList⟩, ⟨"\t".toList, "O3".toList, [] ⟩]
     products := [⟨" ".toList, [], [] ⟩], rate := " 8.0D-12 * A".toList, gap := "  ".toList },
   { label := "2.".toList
     reactants := [⟨[], "HO2".toList, [] ⟩, ⟨[], "HO2".toList, " ".toList⟩]
     products := [⟨[], "H2O2".toList, [] ⟩], rate := "K".toList, gap := [] }]

instance (t : PadTerm) : Decidable t.Ok := by unfold PadTerm.Ok WordOk isPad; infer_instance
instance (t : PadTerm) : Decidable t.Blank := by unfold PadTerm.Blank isPad; infer_instance

example : (∀ r ∈ sampleLayouts, r.Ok) ∧
    (∀ r ∈ sampleLayouts, ∀ t ∈ r.reactants ++ r.products, NameOk t.word) ∧
    (∃ last, sampleLayouts.getLast? = some last ∧
      last.label = Nat.toDigits 10 sampleLayouts.length ++ ['.']) ∧
    render sampleLayouts = "{x} O +\tO3= : 8.0D-12 * A;  {2.}HO2+HO2 =H2O2:K;".toList := by
  refine ⟨?_, ?_, ⟨_, rfl, by decide⟩, by decide +kernel⟩
  · intro r hr
    simp only [sampleLayouts, List.mem_cons, List.not_mem_nil, or_false] at hr
    rcases hr with rfl | rfl <;> constructor <;> decide +kernel
  · intro r hr t ht a s h
    simp only [sampleLayouts, List.mem_cons, List.not_mem_nil, or_false] at hr
    rcases hr with rfl | rfl <;>
      simp only [List.cons_append, List.nil_append, List.mem_cons, List.not_mem_nil, or_false] at ht <;>
      rcases ht with rfl | rfl | rfl <;> simp only at h <;>
      first
        | (injection h with h1 h2; subst h1; decide)
        | (cases h)

/-! ## C04 -/

/-- C04: texts that differ only in line breaks give the same result or the same error. -/
theorem C04_line_breaks (t₁ t₂ : Str) (h : t₁.filter (· ≠ '\n') = t₂.filter (· ≠ '\n')) :
    extractMechanism t₁ = extractMechanism t₂ := by
  have hr : ∀ t : Str, removeChar '\n' t = t.filter (· ≠ '\n') := by
    intro t; unfold removeChar; congr 1; funext c; by_cases h : c = '\n' <;> simp [h]
  unfold extractMechanism
  rw [hr, hr, h]

/-- The state of `scan` after a text. -/
def scanEnd (o c : Char) : Option Str → Str → Option Str
  | st, [] => st
  | none, a :: s => if a = o then scanEnd o c (some []) s else scanEnd o c none s
  | some acc, a :: s => if a = c then scanEnd o c none s else scanEnd o c (some (acc ++ [a])) s

theorem scan_append_eq (o c : Char) (s s' : Str) : ∀ st,
    scan o c st (s ++ s') = scan o c st s ++ scan o c (scanEnd o c st s) s' := by
  induction s with
  | nil => intro st; cases st <;> simp [scan, scanEnd]
  | cons a s ih =>
    intro st
    cases st with
    | none => simp only [List.cons_append, scan, scanEnd]; split <;> exact ih _
    | some acc =>
      simp only [List.cons_append, scan, scanEnd]
      split
      · rw [ih]; rfl
      · exact ih _

theorem scanEnd_closed (o c : Char) (s : Str) :
    (∀ st, (∀ a b, s = a ++ o :: b → c ∈ b) → (st = none ∨ c ∈ s) → scanEnd o c st s = none) := by
  induction s with
  | nil => intro st _ h; simpa [scanEnd] using h
  | cons a s ih =>
    intro st hcl hst
    have hcl' : ∀ x y, s = x ++ o :: y → c ∈ y := fun x y e => hcl (a :: x) y (by rw [e]; rfl)
    cases st with
    | none =>
      rw [scanEnd]
      split
      · rename_i e
        exact ih _ hcl' (.inr (hcl [] s (by rw [e]; rfl)))
      · exact ih _ hcl' (.inl rfl)
    | some acc =>
      rw [scanEnd]
      split
      · exact ih _ hcl' (.inl rfl)
      · rename_i e
        refine ih _ hcl' (.inr ?_)
        simp only [reduceCtorEq, List.mem_cons, false_or] at hst
        rcases hst with h | h
        · exact absurd h.symm e
        · exact h

/-- A tab changes the bodies only by tabs. -/
theorem scan_tab (s : Str) : ∀ (acc acc' : Str), removeChar '\t' acc = removeChar '\t' acc' →
    (scan '}' ';' (some acc) s).map (removeChar '\t') =
      (scan '}' ';' (some acc') s).map (removeChar '\t') := by
  induction s with
  | nil => intros; rfl
  | cons a s ih =>
    intro acc acc' h
    simp only [scan]
    split
    · simp [h]
    · apply ih
      rw [removeChar_append, removeChar_append, h]

theorem parseEqn_congr {b b' : Str} (h : removeChar '\t' b = removeChar '\t' b') :
    parseEqn b = parseEqn b' := by
  unfold parseEqn; simp only [h]

theorem parseAll_congr : ∀ (n : Nat) (bs bs' : List Str),
    bs.map (removeChar '\t') = bs'.map (removeChar '\t') → parseAll bs n = parseAll bs' n := by
  intro n
  induction n with
  | zero => intro bs bs' _; simp [parseAll]
  | succ n ih =>
    intro bs bs' h
    cases bs with
    | nil => cases bs' with
      | nil => rfl
      | cons b bs' => simp at h
    | cons b bs =>
      cases bs' with
      | nil => simp at h
      | cons b' bs' =>
        simp only [List.map_cons, List.cons.injEq] at h
        simp only [parseAll, parseEqn_congr h.1, ih bs bs' h.2]

/-- C04: a tab inserted anywhere outside a brace label changes nothing. -/
theorem C04_tabs (a b : Str) (hout : ∀ x y, a = x ++ '{' :: y → '}' ∈ y) :
    extractMechanism (a ++ '\t' :: b) = extractMechanism (a ++ b) := by
  unfold extractMechanism
  have e1 : removeChar '\n' (a ++ '\t' :: b) = removeChar '\n' a ++ '\t' :: removeChar '\n' b := by
    rw [removeChar_append]; rfl
  have e2 : removeChar '\n' (a ++ b) = removeChar '\n' a ++ removeChar '\n' b := removeChar_append _ _ _
  have hnl1 := not_mem_removeChar '\n' (a ++ '\t' :: b)
  have hnl2 := not_mem_removeChar '\n' (a ++ b)
  have hend : scanEnd '{' '}' none (removeChar '\n' a) = none := by
    apply scanEnd_closed _ _ _ _ _ (.inl rfl)
    intro x y hxy
    -- the same brace in `a`
    unfold removeChar at hxy
    rw [List.filter_eq_append_iff] at hxy
    obtain ⟨l1, l2, rfl, -, h2⟩ := hxy
    rw [List.filter_eq_cons_iff] at h2
    obtain ⟨m1, m2, rfl, -, -, h3⟩ := h2
    have := hout (l1 ++ m1) m2 (by simp)
    rw [← h3, List.mem_filter]
    exact ⟨this, by decide⟩
  have hlab : labels (removeChar '\n' (a ++ '\t' :: b)) = labels (removeChar '\n' (a ++ b)) := by
    rw [labels_eq _ hnl1, labels_eq _ hnl2, e1, e2, scan_append_eq, scan_append_eq, hend]
    rfl
  have hbod : (bodies (removeChar '\n' (a ++ '\t' :: b))).map (removeChar '\t') =
      (bodies (removeChar '\n' (a ++ b))).map (removeChar '\t') := by
    rw [bodies_eq _ hnl1, bodies_eq _ hnl2, e1, e2, scan_append_eq, scan_append_eq, List.map_append,
      List.map_append]
    congr 1
    cases scanEnd '}' ';' none (removeChar '\n' a) with
    | none => rfl
    | some acc =>
      rw [scan, if_neg (by decide)]
      apply scan_tab
      simp [removeChar]
  simp only [hlab, parseAll_congr _ _ _ hbod]

example : extractMechanism sampleText = .ok ⟨build sampleReactions, 3⟩ ∧
    (∃ a b, sampleText = a ++ b ∧ a ≠ [] ∧ b ≠ [] ∧ ∀ x y, a = x ++ '{' :: y → '}' ∈ y) := by
  refine ⟨sample_parses, sampleText.take 6, sampleText.drop 6, (List.take_append_drop _ _).symm,
    by decide +kernel, by decide +kernel, ?_⟩
  intro x y h
  have hl := congrArg List.length h
  have h6 : (sampleText.take 6) = "{1.} N".toList := by decide +kernel
  rw [h6] at h
  have hx : x = [] := by
    cases x with
    | nil => rfl
    | cons c x =>
      exfalso
      simp only [String.toList] at h
      have : '{' ∈ "1.} N".toList := by
        have h' : "1.} N".toList = x ++ '{' :: y := by
          have := congrArg List.tail h
          exact this
        rw [h']; simp
      revert this; decide
  subst hx
  have : y = "1.} N".toList := by
    have := congrArg List.tail h
    exact this.symm
  subst this; decide

/-! ## C05 -/

/-- C05: the recorded loss coefficient is the sum over all occurrences on the left-hand side. -/
theorem C05_loss_coefficients {text : Str} {m : Mechanism} (h : extractMechanism text = .ok m)
    {qs : List RawEqn} (hq : Reads text m.equations.toNat qs) (s : Str) (e : Nat) :
    cell m.tables.loss s e = (qs[e]?).bind (fun q =>
      if s ∈ names (chemReactants q) then some (coef (chemReactants q) s) else none) := by
  obtain ⟨h2, -⟩ := extract_tables h hq
  rw [h2, cell_build_loss]
  rfl

example : Reads sampleText 3 sampleReactions ∧
    coef (chemReactants sampleReactions[2]) "HO2".toList = 2 :=
  ⟨sample_reads, by decide +kernel⟩

/-! ## C06 -/

/-- What C06 asks of one reaction. -/
def Spec.gainCoef (q : RawEqn) (s : Str) : Option ℚ :=
  if s ∈ names (chemProducts q) then some (coef (chemProducts q) s) else none

/-- C06 in full. -/
def C06_Statement : Prop :=
  ∀ (text : Str) (m : Mechanism) (qs : List RawEqn), extractMechanism text = .ok m →
    Reads text m.equations.toNat qs →
    ∀ s e, cell m.tables.gain s e = (qs[e]?).bind (fun q => gainCoef q s)

theorem cell_gain {text : Str} {m : Mechanism} (h : extractMechanism text = .ok m)
    {qs : List RawEqn} (hq : Reads text m.equations.toNat qs) (s : Str) (e : Nat) :
    cell m.tables.gain s e = (qs[e]?).bind (fun q => gainEntry q s) := by
  obtain ⟨h2, -⟩ := extract_tables h hq
  rw [h2, cell_build_gain]

/-- C06, the part that holds: reactions with no product repeated before the last reactant appears
as a product, and no new product after that.  Missing for the full statement: reactions violating
`GainGood`, where the code records a wrong coefficient (`C06_exact`). -/
theorem C06_gain_coefficients_partial {text : Str} {m : Mechanism} (h : extractMechanism text = .ok m)
    {qs : List RawEqn} (hq : Reads text m.equations.toNat qs) {e : Nat} {q : RawEqn}
    (he : qs[e]? = some q) (hg : GainGood q) (s : Str) :
    cell m.tables.gain s e = gainCoef q s := by
  rw [cell_gain h hq, he, Option.bind_some, gainEntry_of_good hg, gainCoef]

/-- C06: with positive coefficients `GainGood` is exactly the condition under which the reaction is
recorded correctly. -/
theorem C06_exact {text : Str} {m : Mechanism} (h : extractMechanism text = .ok m)
    {qs : List RawEqn} (hq : Reads text m.equations.toNat qs) {e : Nat} {q : RawEqn}
    (he : qs[e]? = some q) (hpos : ∀ p ∈ chemProducts q, 0 < p.1) :
    (∀ s, cell m.tables.gain s e = gainCoef q s) ↔ GainGood q := by
  constructor
  · intro hall
    apply good_of_gainEntry hpos
    intro s
    have := hall s
    rw [cell_gain h hq, he, Option.bind_some] at this
    exact this
  · intro hg s
    exact C06_gain_coefficients_partial h hq he hg s

/-- Two reactions of MCM shape: a repeated product, and a product following the last reactant. -/
def badText : Str := "{1.}HCHO=CO+HO2+HO2:J;{2.}OH+CO=CO+HO2:K;".toList

def badReactions : List RawEqn :=
  [{ reactants := [(1, "HCHO".toList)],
     products := [(1, "CO".toList), (1, "HO2".toList), (1, "HO2".toList)], rate := "J".toList },
   { reactants := [(1, "OH".toList), (1, "CO".toList)],
     products := [(1, "CO".toList), (1, "HO2".toList)], rate := "K".toList }]

theorem bad_parses :
    extractMechanism badText = .ok { tables := build badReactions, equations := 2 } := by
  rw [extract_ok_iff]
  refine ⟨"2.".toList, 2, badReactions, ?_, by decide +kernel, ?_, rfl⟩
  · rw [labels_eq _ (not_mem_removeChar _ _)]; decide +kernel
  · rw [bodies_eq _ (not_mem_removeChar _ _)]; decide +kernel

theorem bad_reads : Reads badText 2 badReactions := by
  unfold Reads bodyTexts; decide +kernel

/-- C06 does not hold: `HCHO = CO + HO2 + HO2` yields one HO2, `OH + CO = CO + HO2` yields none. -/
theorem C06_false : ¬ C06_Statement := by
  intro h
  have h0 := h _ _ _ bad_parses bad_reads "HO2".toList 0
  revert h0; decide +kernel

theorem C06_false_dropped : cell (build badReactions).gain "HO2".toList 1 = none ∧
    gainCoef badReactions[1] "HO2".toList = some 1 := by decide +kernel

example : extractMechanism sampleText = .ok ⟨build sampleReactions, 3⟩ ∧
    Reads sampleText 3 sampleReactions ∧ (∀ q ∈ sampleReactions, GainGood q) ∧
    (∀ q ∈ sampleReactions, ∀ p ∈ chemProducts q, 0 < p.1) ∧
    gainCoef sampleReactions[0] "NO2".toList = some 1 :=
  ⟨sample_parses, sample_reads, by decide +kernel, by decide +kernel, by decide +kernel⟩

/-! ## C07 -/

/-- A decimal number as written: digits, and optionally a point and more digits. -/
inductive Spec.Literal where
  | int (ds : Str)
  | dec (ds fs : Str)

def Spec.Literal.Ok : Literal → Prop
  | .int ds => ds ≠ [] ∧ ∀ c ∈ ds, isDigit c = true
  | .dec ds fs => (∀ c ∈ ds, isDigit c = true) ∧ fs ≠ [] ∧ ∀ c ∈ fs, isDigit c = true

def Spec.Literal.text : Literal → Str
  | .int ds => ds
  | .dec ds fs => ds ++ '.' :: fs

/-- Positional value. -/
def Spec.decValue : Str → ℕ
  | [] => 0
  | c :: cs => (c.toNat - 48) * 10 ^ cs.length + decValue cs

def Spec.Literal.value : Literal → ℚ
  | .int ds => decValue ds
  | .dec ds fs => decValue ds + (decValue fs : ℚ) / 10 ^ fs.length

/-- A species name: starts with a character that cannot begin a number. -/
def Spec.SpeciesName (w : Str) : Prop := w ≠ [] ∧ NameOk w

theorem digitsVal_eq (ds : Str) : digitsVal ds = decValue ds := by
  have haux : ∀ (ds : Str) (n : Nat), ds.foldl (fun n c => 10 * n + (c.toNat - '0'.toNat)) n =
      n * 10 ^ ds.length + decValue ds := by
    intro ds
    induction ds with
    | nil => intro n; simp [decValue]
    | cons c cs ih =>
      intro n
      rw [List.foldl_cons, ih, decValue, List.length_cons]
      have : '0'.toNat = 48 := rfl
      rw [this]; ring
  unfold digitsVal
  rw [haux]; simp

theorem Spec.Literal.pyFloat_text {l : Literal} (h : l.Ok) : pyFloat l.text = l.value := by
  cases l with
  | int ds => rw [Literal.text, pyFloat_int _ h.2, digitsVal_eq]; rfl
  | dec ds fs => rw [Literal.text, pyFloat_dec _ _ h.1, digitsVal_eq, digitsVal_eq]; rfl

theorem Spec.Literal.text_ne {l : Literal} (h : l.Ok) : l.text ≠ [] := by
  cases l with
  | int ds => exact h.1
  | dec ds fs => simp [Literal.text]

theorem Spec.Literal.matchAt {l : Literal} (h : l.Ok) {name : Str} (hn : NameOk name) :
    Re.matchAt Re.number (l.text ++ name) = some (l.text, name) := by
  have hs : ∀ a t, name = a :: t → isDigit a = false ∧ a ≠ '.' := by
    intro a t e
    have := hn a t e
    simp only [Re.numStart, Bool.or_eq_false_iff, beq_eq_false_iff_ne] at this
    exact ⟨this.1.1.1, this.1.1.2⟩
  cases l with
  | int ds => exact Re.matchAt_int ds name h.1 h.2 hs
  | dec ds fs => exact Re.matchAt_dec ds fs name h.1 h.2.1 h.2.2 (fun a t e => (hs a t e).1)

/-- C07 in full. -/
def C07_Statement : Prop :=
  (∀ w, SpeciesName w → parseTerm w = (1, w)) ∧
  ∀ (l : Literal) (w : Str), l.Ok → SpeciesName w → parseTerm (l.text ++ w) = (l.value, w)

/-- C07: a name alone is read as coefficient one and that name (names may contain digits). -/
theorem C07_bare_name (w : Str) (h : SpeciesName w) : parseTerm w = (1, w) :=
  parseTerm_name w h.2

/-- C07, the part that holds: a coefficient before a name without digits.  Missing: names with a
digit, for which `C07_wrong` shows that the code is always wrong. -/
theorem C07_coefficient_partial (l : Literal) (w : Str) (hl : l.Ok) (hw : SpeciesName w)
    (hd : ∀ c ∈ w, isDigit c = false) : parseTerm (l.text ++ w) = (l.value, w) := by
  rw [parseTerm_lit (l.matchAt hl hw.2) (Literal.text_ne hl) hd, Literal.pyFloat_text hl]

/-- C07: a coefficient before a name that contains a digit is never read correctly: the
coefficient is right but the name is a different one. -/
theorem C07_wrong (l : Literal) (w : Str) (hl : l.Ok) (hw : SpeciesName w)
    (hd : ∃ c ∈ w, isDigit c = true) :
    (parseTerm (l.text ++ w)).1 = l.value ∧ (parseTerm (l.text ++ w)).2 ≠ w := by
  obtain ⟨u, us, -, hu, he⟩ := parseTerm_lit_digit (l.matchAt hl hw.2) (Literal.text_ne hl) hd
  rw [he, Literal.pyFloat_text hl]
  refine ⟨rfl, ?_⟩
  intro h
  have := congrArg List.length h
  simp only [List.length_append] at this
  exact hu (List.length_eq_zero_iff.1 (by omega))

/-- C07 does not hold. -/
theorem C07_false : ¬ C07_Statement := by
  rintro ⟨-, h⟩
  have hl : (Literal.int "2".toList).Ok := ⟨by decide, by decide⟩
  have hw : SpeciesName "HO2".toList := by
    refine ⟨by decide, ?_⟩
    intro a t e
    injection e with e1 e2; subst e1; decide
  have := (C07_wrong (.int "2".toList) "HO2".toList hl hw ⟨'2', by decide, by decide⟩).2
  rw [h _ _ hl hw] at this
  exact this rfl

example : (Literal.dec "0".toList "75".toList).Ok ∧ SpeciesName "CO".toList ∧
    (∀ c ∈ "CO".toList, isDigit c = false) ∧
    (Literal.dec "0".toList "75".toList).value = 3 / 4 ∧
    parseTerm "0.75CO".toList = (3 / 4, "CO".toList) ∧
    parseTerm "2HO2".toList = (2, "HO22".toList) := by
  refine ⟨⟨by decide, by decide, by decide⟩, ⟨by decide, ?_⟩, by decide, ?_, by decide +kernel,
    by decide +kernel⟩
  · intro a t e
    injection e with e1 e2; subst e1; decide
  · decide +kernel

/-! ## C08 -/

/-- C08: parsing succeeds exactly on files whose last label is an integer `n` and whose first `n`
bodies exist and are well formed; the result then announces `n` reactions and has exactly `n` rate
expressions. -/
theorem C08_accepts_iff (text : Str) (n : Int) :
    (∃ m, extractMechanism text = .ok m ∧ m.equations = n) ↔
      ∃ l, (labelTexts text).getLast? = some l ∧ pyInt (stripBy (· == '.') l) = .ok n ∧
        n.toNat ≤ (bodyTexts text).length ∧ ∀ b ∈ (bodyTexts text).take n.toNat, WellFormed b := by
  have hnl := not_mem_removeChar '\n' text
  constructor
  · rintro ⟨m, h, rfl⟩
    rw [extract_ok_iff] at h
    obtain ⟨l, n, qs, h1, h2, h3, rfl⟩ := h
    rw [labels_eq _ hnl] at h1
    rw [bodies_eq _ hnl, parseAll_ok_iff] at h3
    refine ⟨l, h1, h2, h3.1, ?_⟩
    intro b hb
    rw [← parseEqn_isOk_iff]
    have : parseEqn b ∈ qs.map Except.ok := by rw [← h3.2]; exact List.mem_map_of_mem hb
    rw [List.mem_map] at this
    obtain ⟨q, -, hq⟩ := this
    exact ⟨q, hq.symm⟩
  · rintro ⟨l, h1, h2, h3, h4⟩
    have hqs : ∀ bs : List Str, (∀ b ∈ bs, WellFormed b) →
        ∃ qs : List RawEqn, bs.map parseEqn = qs.map Except.ok := by
      intro bs
      induction bs with
      | nil => intro _; exact ⟨[], rfl⟩
      | cons b bs ih =>
        intro hb
        obtain ⟨qs, hqs⟩ := ih (fun b h => hb b (List.mem_cons_of_mem _ h))
        obtain ⟨q, hq⟩ := (parseEqn_isOk_iff b).2 (hb b (by simp))
        exact ⟨q :: qs, by simp [hq, hqs]⟩
    obtain ⟨qs, hqs⟩ := hqs _ h4
    refine ⟨⟨build qs, n⟩, ?_, rfl⟩
    rw [extract_ok_iff]
    refine ⟨l, n, qs, by rw [labels_eq _ hnl]; exact h1, h2, ?_, rfl⟩
    rw [bodies_eq _ hnl, parseAll_ok_iff]
    exact ⟨h3, hqs⟩

/-- C08: on every other text an exception is raised. -/
theorem C08_rejects (text : Str)
    (h : ¬ ∃ l n, (labelTexts text).getLast? = some l ∧ pyInt (stripBy (· == '.') l) = .ok n ∧
      n.toNat ≤ (bodyTexts text).length ∧ ∀ b ∈ (bodyTexts text).take n.toNat, WellFormed b) :
    ∃ err, extractMechanism text = .error err := by
  cases hx : extractMechanism text with
  | error e => exact ⟨e, rfl⟩
  | ok m =>
    exfalso
    obtain ⟨l, hl⟩ := (C08_accepts_iff text m.equations).1 ⟨m, hx, rfl⟩
    exact h ⟨l, _, hl⟩

/-- C08: one rate expression per announced reaction, numbered from zero. -/
theorem C08_rate_count {text : Str} {m : Mechanism} (h : extractMechanism text = .ok m) :
    m.tables.rate.keys = List.range m.equations.toNat := by
  obtain ⟨qs, -, h2, h3⟩ := extract_reads h
  rw [h2, keys_build_rate, h3]

/-- A missing colon, a missing equals sign, a blank reactant, a too large label, no label. -/
example : (∃ m, extractMechanism sampleText = .ok m ∧ m.equations = 3) ∧
    extractMechanism "{1.}A=B;".toList = .error .index ∧
    extractMechanism "{1.}A:B;".toList = .error .index ∧
    extractMechanism "{1.}A+ =B:K;".toList = .error .index ∧
    extractMechanism "{2.}A=B:K;".toList = .error .index ∧
    extractMechanism "A=B:K;".toList = .error .index ∧
    extractMechanism "{one}A=B:K;".toList = .error .value := by
  refine ⟨⟨_, sample_parses, rfl⟩, ?_, ?_, ?_, ?_, ?_, ?_⟩ <;> decide +kernel

/-! ## C09 -/

theorem foldl_addName_prefix (l : List Str) : ∀ ns, ns <+: l.foldl addName ns := by
  induction l with
  | nil => intro ns; exact List.prefix_refl _
  | cons n l ih =>
    intro ns
    rw [List.foldl_cons]
    refine List.IsPrefix.trans ?_ (ih _)
    unfold addName
    split
    · exact List.prefix_refl _
    · exact List.prefix_append _ _

theorem registered_prefix {qs qs' : List RawEqn} (h : qs <+: qs') : registered qs <+: registered qs' := by
  obtain ⟨r, rfl⟩ := h
  unfold registered
  rw [List.flatMap_append, List.foldl_append]
  exact foldl_addName_prefix _ _

theorem reads_prefix {t₁ t₂ : Str} {n₁ n₂ : Nat} {qs₁ qs₂ : List RawEqn} (hn : n₁ ≤ n₂)
    (h₁ : Reads t₁ n₁ qs₁) (h₂ : Reads (t₁ ++ t₂) n₂ qs₂) : qs₁ <+: qs₂ := by
  have hp : bodyTexts t₁ <+: bodyTexts (t₁ ++ t₂) := by
    unfold bodyTexts
    rw [removeChar_append]
    exact scan_append _ _ _ _ _
  obtain ⟨r, hr⟩ := hp
  have ht : (bodyTexts t₁).take n₁ <+: (bodyTexts (t₁ ++ t₂)).take n₂ := by
    rw [← hr]
    have : (bodyTexts t₁).take n₁ = (bodyTexts t₁ ++ r).take n₁ := by
      rw [List.take_append_of_le_length h₁.1]
    rw [this]
    exact List.take_prefix_take_left hn
  have := ht.map parseEqn
  rw [h₁.2, h₂.2] at this
  obtain ⟨w, hw⟩ := this
  rw [eq_comm, List.map_eq_append_iff] at hw
  obtain ⟨a, b, rfl, ha, -⟩ := hw
  have : a = qs₁ := List.map_injective_iff.2 (fun a b h => by injection h) ha
  rw [this]; exact List.prefix_append _ _

/-- C09: extending a file never changes what was read before. -/
theorem C09_extension {t₁ t₂ : Str} {m₁ m₂ : Mechanism} (h₁ : extractMechanism t₁ = .ok m₁)
    (h₂ : extractMechanism (t₁ ++ t₂) = .ok m₂) (hn : m₁.equations ≤ m₂.equations) :
    (∀ s i, m₁.tables.index.get? s = some i → m₂.tables.index.get? s = some i) ∧
    (∀ s i, m₁.tables.index.get? s = none → m₂.tables.index.get? s = some i →
      m₁.tables.species.length ≤ i) ∧
    (∀ e < m₁.equations.toNat,
      m₂.tables.rate.get? e = m₁.tables.rate.get? e ∧
      m₂.tables.reactants.getD e [] = m₁.tables.reactants.getD e [] ∧
      ∀ s, cell m₂.tables.loss s e = cell m₁.tables.loss s e ∧
        cell m₂.tables.gain s e = cell m₁.tables.gain s e) := by
  obtain ⟨qs₁, r₁, e₁, l₁⟩ := extract_reads h₁
  obtain ⟨qs₂, r₂, e₂, l₂⟩ := extract_reads h₂
  have hpre := reads_prefix (Int.toNat_le_toNat hn) r₁ r₂
  have hreg := registered_prefix hpre
  have i₁ := spInv_build qs₁
  have i₂ := spInv_build qs₂
  rw [e₁, e₂, ← l₁]
  refine ⟨?_, ?_, ?_⟩
  · intro s i hs
    rw [i₁.index_eq, zipIdx_get? _ i₁.nodup] at hs
    rw [i₂.index_eq, zipIdx_get? _ i₂.nodup]
    obtain ⟨w, hw⟩ := hreg
    rw [← hw, List.getElem?_append_left (List.getElem?_eq_some_iff.1 hs).1]
    exact hs
  · intro s i hs1 hs2
    rw [i₁.index_eq, Dict.get?_eq_none_iff, zipIdx_keys] at hs1
    rw [i₂.index_eq, zipIdx_get? _ i₂.nodup] at hs2
    rw [i₁.species_eq]
    simp only [List.length_map, List.length_zipIdx]
    by_contra hcon
    obtain ⟨w, hw⟩ := hreg
    rw [← hw, List.getElem?_append_left (by omega)] at hs2
    exact hs1 (List.mem_of_getElem? hs2)
  · intro e he
    have hq : qs₂[e]? = qs₁[e]? := by
      obtain ⟨w, rfl⟩ := hpre
      rw [List.getElem?_append_left he]
    refine ⟨?_, ?_, ?_⟩
    · rw [get?_build_rate, get?_build_rate, hq]
    · rw [getD_build_reactants, getD_build_reactants, hq]
    · intro s
      rw [cell_build_loss, cell_build_loss, cell_build_gain, cell_build_gain, hq]
      exact ⟨rfl, rfl⟩

/-- Non-trivial instance: a file and a proper extension of it both parse. -/
example : (∃ m, extractMechanism "{1.}A=B:K;".toList = .ok m ∧ m.equations = 1) ∧
    (∃ m, extractMechanism ("{1.}A=B:K;".toList ++ "{2.}B+C=A:L;".toList) = .ok m ∧
      m.equations = 2) := by
  have h1 : extractMechanism "{1.}A=B:K;".toList = .ok ⟨build
      [⟨[(1, "A".toList)], [(1, "B".toList)], "K".toList⟩], 1⟩ := by decide +kernel
  have h2 : extractMechanism ("{1.}A=B:K;".toList ++ "{2.}B+C=A:L;".toList) = .ok ⟨build
      [⟨[(1, "A".toList)], [(1, "B".toList)], "K".toList⟩,
       ⟨[(1, "B".toList), (1, "C".toList)], [(1, "A".toList)], "L".toList⟩], 2⟩ := by decide +kernel
  exact ⟨⟨_, h1, rfl⟩, ⟨_, h2, rfl⟩⟩

end PyBox
