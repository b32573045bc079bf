import Verif.Spec.Reaction

/-!
# Species registration: lemmas
-/

namespace PyBox

/-- The species tables list exactly `ns`, in order. -/
structure SpInv (t : Tables) (ns : List Str) : Prop where
  nodup : ns.Nodup
  species_eq : t.species = ns.zipIdx.map (fun p => (p.2, p.1))
  index_eq : t.index = ns.zipIdx
  next_eq : t.next = ns.length

/-- Add a name at the end unless it is the photon marker or already present. -/
def addName (ns : List Str) (n : Str) : List Str := if n = hv ∨ n ∈ ns then ns else ns ++ [n]

theorem SpInv.values {t : Tables} {ns : List Str} (h : SpInv t ns) : t.species.values = ns := by
  rw [h.species_eq]
  simp only [Dict.values, List.map_map, Function.comp_def]
  exact List.zipIdx_map_fst 0 ns

theorem zipIdx_keys (ns : List Str) : Dict.keys (ns.zipIdx : Dict Str Nat) = ns := by
  exact List.zipIdx_map_fst 0 ns

theorem zipIdx_swap_keys (ns : List Str) (k : Nat) :
    k ∈ Dict.keys ((ns.zipIdx.map (fun p => (p.2, p.1))) : Dict Nat Str) ↔ k < ns.length := by
  simp only [Dict.keys, List.map_map, Function.comp_def]
  rw [show (fun x : Str × Nat => x.2) = Prod.snd from rfl, List.zipIdx_map_snd]
  simp

theorem SpInv.register {t : Tables} {ns : List Str} (h : SpInv t ns) (n : Str) (hn : n ≠ hv) :
    SpInv (registerSpecies n t) (addName ns n) := by
  unfold registerSpecies addName
  rw [h.values]
  by_cases hm : n ∈ ns
  · simp [hm, hn]; exact h
  · simp only [hm, hn, if_false, or_self]
    refine ⟨?_, ?_, ?_, ?_⟩
    · rw [List.nodup_append]
      refine ⟨h.nodup, by simp, ?_⟩
      intro a ha b hb
      simp only [List.mem_singleton] at hb
      subst hb
      rintro rfl
      exact hm ha
    · simp only
      rw [h.species_eq, h.next_eq, Dict.set_of_not_mem]
      · simp [List.zipIdx_append]
      · rw [zipIdx_swap_keys]; simp
    · simp only
      rw [h.index_eq, h.next_eq, Dict.set_of_not_mem]
      · simp [List.zipIdx_append]
      · rw [zipIdx_keys]; exact hm
    · simp [h.next_eq]

theorem SpInv.congr {t t' : Tables} {ns : List Str} (h : SpInv t ns) (h1 : t'.species = t.species)
    (h2 : t'.index = t.index) (h3 : t'.next = t.next) : SpInv t' ns :=
  ⟨h.nodup, h1 ▸ h.species_eq, h2 ▸ h.index_eq, h3 ▸ h.next_eq⟩

theorem addName_hv (ns : List Str) : addName ns hv = ns := by simp [addName]

theorem SpInv.addReactant {t : Tables} {ns : List Str} (h : SpInv t ns) (e k : Nat)
    (p : ℚ × Str) : SpInv (addReactant e (t, k) p).1 (addName ns p.2) := by
  obtain ⟨c, n⟩ := p
  unfold PyBox.addReactant
  by_cases hn : n = hv
  · subst hn; simp only [if_true, addName_hv]; exact h
  · simp only [hn, if_false]
    have h1 : SpInv { t with stoich := set2 t.stoich e k c, reactants := set2 t.reactants e k n } ns :=
      h.congr rfl rfl rfl
    exact (h1.register n hn).congr rfl rfl rfl

theorem SpInv.addProduct {t : Tables} {ns : List Str} (h : SpInv t ns) (e : Nat) (last : Str)
    (p : ℚ × Str) : SpInv (addProduct e last t p) (addName ns p.2) := by
  obtain ⟨c, n⟩ := p
  unfold PyBox.addProduct
  by_cases hn : n = hv
  · subst hn; simp only [if_true, addName_hv]; exact h
  · simp only [hn, if_false]
    exact (h.register n hn).congr rfl rfl rfl

theorem SpInv.foldReactants (e : Nat) (rs : List (ℚ × Str)) :
    ∀ (t : Tables) (k : Nat) (ns : List Str), SpInv t ns →
      SpInv (rs.foldl (PyBox.addReactant e) (t, k)).1 ((Spec.names rs).foldl addName ns) := by
  induction rs with
  | nil => intro t k ns h; simpa [Spec.names] using h
  | cons p rs ih =>
    intro t k ns h
    have h1 := h.addReactant e k p
    have := ih (PyBox.addReactant e (t, k) p).1 (PyBox.addReactant e (t, k) p).2 _ h1
    simpa [Spec.names] using this

theorem SpInv.foldProducts (e : Nat) (last : Str) (ps : List (ℚ × Str)) :
    ∀ (t : Tables) (ns : List Str), SpInv t ns →
      SpInv (ps.foldl (PyBox.addProduct e last) t) ((Spec.names ps).foldl addName ns) := by
  induction ps with
  | nil => intro t ns h; simpa [Spec.names] using h
  | cons p ps ih =>
    intro t ns h
    have := ih _ _ (h.addProduct e last p)
    simpa [Spec.names] using this

theorem SpInv.addEqn {t : Tables} {ns : List Str} (h : SpInv t ns) (e : Nat) (q : RawEqn) :
    SpInv (PyBox.addEqn t e q)
      ((Spec.names q.reactants ++ Spec.names q.products).foldl addName ns) := by
  unfold PyBox.addEqn
  rw [List.foldl_append]
  apply SpInv.foldProducts
  apply SpInv.foldReactants
  exact h.congr rfl rfl rfl

theorem SpInv.buildFrom (qs : List RawEqn) : ∀ (t : Tables) (ns : List Str) (e : Nat), SpInv t ns →
    SpInv (PyBox.buildFrom t e qs)
      ((qs.flatMap (fun q => Spec.names q.reactants ++ Spec.names q.products)).foldl addName ns) := by
  induction qs with
  | nil => intro t ns e h; simpa [PyBox.buildFrom] using h
  | cons q qs ih =>
    intro t ns e h
    have := ih _ _ (e + 1) (h.addEqn e q)
    rw [List.flatMap_cons, List.foldl_append]
    exact this

/-- The names registered for a mechanism, in order. -/
def registered (qs : List RawEqn) : List Str :=
  (qs.flatMap (fun q => Spec.names q.reactants ++ Spec.names q.products)).foldl addName []

theorem spInv_build (qs : List RawEqn) : SpInv (build qs) (registered qs) :=
  SpInv.buildFrom qs _ _ _ ⟨List.nodup_nil, rfl, rfl, rfl⟩

theorem mem_foldl_addName (l : List Str) : ∀ (ns : List Str) (s : Str),
    s ∈ l.foldl addName ns ↔ s ∈ ns ∨ (s ∈ l ∧ s ≠ hv) := by
  induction l with
  | nil => simp
  | cons n l ih =>
    intro ns s
    rw [List.foldl_cons, ih]
    unfold addName
    by_cases h : n = hv
    · subst h
      simp only [true_or, if_true, List.mem_cons]
      constructor
      · rintro (h | ⟨h, h'⟩)
        · exact Or.inl h
        · exact Or.inr ⟨Or.inr h, h'⟩
      · rintro (h | ⟨h | h, h'⟩)
        · exact Or.inl h
        · exact absurd h h'
        · exact Or.inr ⟨h, h'⟩
    · by_cases hm : n ∈ ns
      · simp only [h, hm, or_true, if_true, List.mem_cons]
        constructor
        · rintro (h | ⟨h, h'⟩)
          · exact Or.inl h
          · exact Or.inr ⟨Or.inr h, h'⟩
        · rintro (h | ⟨h | h, h'⟩)
          · exact Or.inl h
          · subst h; exact Or.inl hm
          · exact Or.inr ⟨h, h'⟩
      · simp only [h, hm, or_self, if_false, List.mem_append, List.mem_cons, List.mem_nil_iff, or_false]
        constructor
        · rintro ((h' | h') | ⟨h', h''⟩)
          · exact Or.inl h'
          · subst h'; exact Or.inr ⟨Or.inl rfl, h⟩
          · exact Or.inr ⟨Or.inr h', h''⟩
        · rintro (h' | ⟨h' | h', h''⟩)
          · exact Or.inl (Or.inl h')
          · exact Or.inl (Or.inr h')
          · exact Or.inr ⟨h', h''⟩

theorem mem_registered (qs : List RawEqn) (s : Str) :
    s ∈ registered qs ↔ s ∈ Spec.allOccurrences qs := by
  unfold registered Spec.allOccurrences Spec.occurrences
  rw [mem_foldl_addName]
  simp only [List.not_mem_nil, false_or, List.mem_flatMap, List.mem_filter, decide_eq_true_eq, ne_eq]
  constructor
  · rintro ⟨⟨q, hq, hs⟩, h⟩; exact ⟨q, hq, hs, h⟩
  · rintro ⟨q, hq, hs, h⟩; exact ⟨⟨q, hq, hs⟩, h⟩

theorem foldl_addName_filter (l : List Str) : ∀ ns,
    l.foldl addName ns = (l.filter (fun s => s ≠ hv)).foldl addName ns := by
  induction l with
  | nil => intro ns; rfl
  | cons n l ih =>
    intro ns
    by_cases h : n = hv
    · subst h
      simp only [List.foldl_cons, addName_hv]
      rw [ih, List.filter_cons_of_neg (by simp)]
    · rw [List.filter_cons_of_pos (by simpa using h), List.foldl_cons, List.foldl_cons, ih]

theorem registered_eq (qs : List RawEqn) :
    registered qs = (Spec.allOccurrences qs).foldl addName [] := by
  unfold registered Spec.allOccurrences Spec.occurrences
  rw [foldl_addName_filter, List.filter_flatMap]

/-- First appearance order: if the accumulated names are ordered by first position in the text read
so far, they stay so. -/
theorem foldl_addName_order (l : List Str) : ∀ (pre ns : List Str), (∀ s ∈ l, s ≠ hv) →
    (∀ s, s ∈ ns ↔ s ∈ pre) → ns.Pairwise (fun a b => pre.idxOf a < pre.idxOf b) →
    (l.foldl addName ns).Pairwise (fun a b => (pre ++ l).idxOf a < (pre ++ l).idxOf b) := by
  induction l with
  | nil => intro pre ns _ _ h; simpa using h
  | cons n l ih =>
    intro pre ns hhv hmem hp
    rw [List.foldl_cons]
    have key := ih (pre ++ [n]) (addName ns n) (fun s hs => hhv s (List.mem_cons_of_mem _ hs))
    rw [List.append_assoc, List.singleton_append] at key
    have hn : n ≠ hv := hhv n (List.mem_cons_self ..)
    apply key
    · intro s
      unfold addName
      by_cases hm : n ∈ ns
      · simp only [hm, or_true, if_true, List.mem_append, List.mem_singleton, hmem]
        constructor
        · exact Or.inl
        · rintro (h | rfl)
          · exact h
          · exact (hmem _).1 hm
      · simp [hn, hm, hmem]
    · have lift : ∀ a b, a ∈ pre → b ∈ pre → pre.idxOf a < pre.idxOf b →
          (pre ++ [n]).idxOf a < (pre ++ [n]).idxOf b := by
        intro a b ha hb hlt
        rw [List.idxOf_append_of_mem ha, List.idxOf_append_of_mem hb]
        exact hlt
      have hp' : ns.Pairwise (fun a b => (pre ++ [n]).idxOf a < (pre ++ [n]).idxOf b) := by
        refine List.Pairwise.imp_of_mem ?_ hp
        intro a b ha hb
        exact lift a b ((hmem a).1 ha) ((hmem b).1 hb)
      unfold addName
      by_cases hm : n ∈ ns
      · simpa [hm] using hp'
      · simp only [hn, hm, or_self, if_false]
        rw [List.pairwise_append]
        refine ⟨hp', by simp, ?_⟩
        intro a ha b hb
        simp only [List.mem_singleton] at hb
        subst hb
        have hapre := (hmem a).1 ha
        have hbpre : b ∉ pre := fun h => hm ((hmem b).2 h)
        rw [List.idxOf_append_of_mem hapre, List.idxOf_append_of_notMem hbpre]
        have := List.idxOf_lt_length_of_mem hapre
        omega

theorem registered_order (qs : List RawEqn) :
    (registered qs).Pairwise (fun a b =>
      (Spec.allOccurrences qs).idxOf a < (Spec.allOccurrences qs).idxOf b) := by
  rw [registered_eq]
  have := foldl_addName_order (Spec.allOccurrences qs) [] [] ?_ (by simp) (by simp)
  · simpa using this
  · intro s hs
    unfold Spec.allOccurrences Spec.occurrences at hs
    simp only [List.mem_flatMap, List.mem_filter, decide_eq_true_eq] at hs
    obtain ⟨q, _, _, h⟩ := hs
    exact h

theorem zipIdx_get? (ns : List Str) (hn : ns.Nodup) (s : Str) (k : Nat) :
    Dict.get? (ns.zipIdx : Dict Str Nat) s = some k ↔ ns[k]? = some s := by
  rw [Dict.get?_eq_some_iff (by rw [zipIdx_keys]; exact hn), List.mk_mem_zipIdx_iff_getElem?]

theorem zipIdx_swap_get? (ns : List Str) (k : Nat) :
    Dict.get? (ns.zipIdx.map (fun p => (p.2, p.1)) : Dict Nat Str) k = ns[k]? := by
  have hn : (Dict.keys (ns.zipIdx.map (fun p => (p.2, p.1)) : Dict Nat Str)).Nodup := by
    simp only [Dict.keys, List.map_map, Function.comp_def]
    rw [show (fun x : Str × Nat => x.2) = Prod.snd from rfl, List.zipIdx_map_snd]
    exact List.nodup_range'
  ext s
  rw [Dict.get?_eq_some_iff hn]
  simp only [List.mem_map, Prod.mk.injEq, Prod.exists]
  constructor
  · rintro ⟨a, b, h, rfl, rfl⟩
    exact List.mk_mem_zipIdx_iff_getElem?.1 h
  · intro h
    exact ⟨s, k, List.mk_mem_zipIdx_iff_getElem?.2 h, rfl, rfl⟩

end PyBox
