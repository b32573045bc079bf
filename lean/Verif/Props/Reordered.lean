import Verif.Props.RepeatedProducts
import Verif.Props.GasFiles

/-!
# C100: the order of the reactions in a mechanism file

The parser numbers species and reactions in the order in which the file lists them
(`/repo/Parse_eqn_file.py`, `extract_mechanism`). Two files that list the same reactions in different orders,
and the species of a reaction in different orders, give different tables, different generated files and states
whose components are in different places. The simulated concentration of every species is the same.
-/

namespace PyBox

open Set Spec Rl

namespace Spec

/-- Two reactions with the same reactants, the same products, the same recorded products and the same text for the
rate coefficient, in any order. -/
structure SameReaction (q q' : RawEqn) : Prop where
  reactants : (chemReactants q).Perm (chemReactants q')
  products : (chemProducts q).Perm (chemProducts q')
  recorded : ∀ s, gainCoef (asRecorded q) s = gainCoef (asRecorded q') s
  rate : q.rate = q'.rate

/-- The same reactions in another order. -/
def Reordered (qs qs' : List RawEqn) : Prop := ∃ l, qs.Perm l ∧ List.Forall₂ SameReaction l qs'

/-- Two states that hold the same value for every species. -/
def SameByName (m m' : Mechanism) {n n' : ℕ} (y : Fin n → ℝ) (y' : Fin n' → ℝ) : Prop :=
  ∀ s (i : Fin n) (i' : Fin n'), m.tables.index.get? s = some (i : ℕ) → m'.tables.index.get? s = some (i' : ℕ) →
    y i = y' i'

/-- The rate coefficient of a reaction is that of the text in the file. -/
def RatesByText (qs : List RawEqn) (rates : Rates) (h2o temp : ℝ) (K : Str → ℝ → ℝ → ℝ) : Prop :=
  ∀ (e : ℕ) q, qs[e]? = some q → ∀ t r, rates t r h2o temp e = K q.rate t r

end Spec

/-! ## Reactions -/

theorem Spec.SameReaction.refl (q : RawEqn) : SameReaction q q := ⟨.refl _, .refl _, fun _ => rfl, rfl⟩

theorem coef_perm {l l' : List (ℚ × Str)} (h : l.Perm l') (s : Str) : coef l s = coef l' s := by
  induction h with
  | nil => rfl
  | cons p _ ih => rw [coef_cons, coef_cons, ih]
  | swap p p' l => rw [coef_cons, coef_cons, coef_cons, coef_cons]; ring
  | trans _ _ ih ih' => rw [ih, ih']

theorem names_perm {l l' : List (ℚ × Str)} (h : l.Perm l') : (names l).Perm (names l') := h.map _

theorem gainCoef_asRecorded (q : RawEqn) (s : Str) : gainCoef (asRecorded q) s = gainEntry q s := by
  unfold gainCoef
  rw [chemProducts_asRecorded, coef_recorded]
  by_cases hs : s ∈ names (recordedProducts q)
  · rw [if_pos hs, gainEntry_eq, if_pos (mem_names_recorded.1 hs)]
    rfl
  · rw [if_neg hs, gainEntry_eq, if_neg fun hc => hs (mem_names_recorded.2 hc)]

/-- Reactions whose products are recorded as they are. -/
theorem Spec.SameReaction.of_good {q q' : RawEqn} (hq : GainGood q) (hq' : GainGood q')
    (hl : (chemReactants q).Perm (chemReactants q')) (hr : (chemProducts q).Perm (chemProducts q'))
    (hk : q.rate = q'.rate) : SameReaction q q' := by
  refine ⟨hl, hr, fun s => ?_, hk⟩
  rw [gainCoef_asRecorded, gainCoef_asRecorded, gainEntry_of_good hq, gainEntry_of_good hq', coef_perm hr,
    if_congr (names_perm hr).mem_iff rfl rfl]

theorem Spec.Reordered.of_perm {qs qs' : List RawEqn} (h : qs.Perm qs') : Reordered qs qs' :=
  ⟨qs', h, List.forall₂_same.2 fun q _ => .refl q⟩

theorem Spec.Reordered.length {qs qs' : List RawEqn} (h : Reordered qs qs') : qs.length = qs'.length := by
  obtain ⟨l, h1, h2⟩ := h
  rw [h1.length_eq, h2.length_eq]

theorem Spec.Reordered.left {qs qs' : List RawEqn} (h : Reordered qs qs') {q : RawEqn} (hq : q ∈ qs) :
    ∃ q' ∈ qs', SameReaction q q' := by
  obtain ⟨l, h1, h2⟩ := h
  have hl := h1.mem_iff.1 hq
  clear h1 hq
  induction h2 with
  | nil => cases hl
  | cons hab _ ih =>
    rcases List.mem_cons.1 hl with rfl | hm
    · exact ⟨_, List.mem_cons_self, hab⟩
    · obtain ⟨q', h1, h2⟩ := ih hm
      exact ⟨q', List.mem_cons_of_mem _ h1, h2⟩

theorem Spec.Reordered.right {qs qs' : List RawEqn} (h : Reordered qs qs') {q' : RawEqn} (hq : q' ∈ qs') :
    ∃ q ∈ qs, SameReaction q q' := by
  obtain ⟨l, h1, h2⟩ := h
  have : ∃ q ∈ l, SameReaction q q' := by
    clear h1
    induction h2 with
    | nil => cases hq
    | cons hab _ ih =>
      rcases List.mem_cons.1 hq with rfl | hm
      · exact ⟨_, List.mem_cons_self, hab⟩
      · obtain ⟨q, h1, h2⟩ := ih hm
        exact ⟨q, List.mem_cons_of_mem _ h1, h2⟩
  obtain ⟨q, hm, hs⟩ := this
  exact ⟨q, h1.mem_iff.2 hm, hs⟩

/-- A sum over the reactions is the same for both lists. -/
theorem Spec.Reordered.sum {qs qs' : List RawEqn} (h : Reordered qs qs') {g g' : RawEqn → ℝ}
    (hg : ∀ q ∈ qs, ∀ q', SameReaction q q' → g q = g' q') : (qs.map g).sum = (qs'.map g').sum := by
  obtain ⟨l, h1, h2⟩ := h
  rw [(h1.map g).sum_eq]
  have hg' : ∀ q ∈ l, ∀ q', SameReaction q q' → g q = g' q' := fun q hq => hg q (h1.mem_iff.2 hq)
  clear h1 hg
  induction h2 with
  | nil => rfl
  | cons hab _ ih =>
    rw [List.map_cons, List.map_cons, List.sum_cons, List.sum_cons, hg' _ List.mem_cons_self _ hab,
      ih fun q hq => hg' q (List.mem_cons_of_mem _ hq)]

theorem sum_range_getElem {l : List RawEqn} {F : ℕ → ℝ} {g : RawEqn → ℝ} (h : ∀ (e : ℕ) q, l[e]? = some q → F e = g q) :
    ∑ e ∈ Finset.range l.length, F e = (l.map g).sum := by
  induction l generalizing F with
  | nil => rfl
  | cons a l ih =>
    rw [List.length_cons, Finset.sum_range_succ', List.map_cons, List.sum_cons, add_comm, h 0 a rfl,
      ih (F := fun e => F (e + 1)) fun e q he => h (e + 1) q he]

theorem codeProduct_perm {q q' : RawEqn} (h : (chemReactants q).Perm (chemReactants q')) {c c' : Str → ℝ}
    (hc : ∀ s ∈ names (chemReactants q), c s = c' s) : codeProduct q c = codeProduct q' c' := by
  unfold codeProduct
  have hnil : chemReactants q = [] ↔ chemReactants q' = [] := by
    constructor
    · intro h0; have := h; rw [h0] at this; exact this.nil_eq.symm
    · intro h0; have := h; rw [h0] at this; exact this.eq_nil
  by_cases h0 : chemReactants q = []
  · rw [if_pos h0, if_pos (hnil.1 h0)]
  · rw [if_neg h0, if_neg fun hc => h0 (hnil.2 hc), ← ((names_perm h).map _).prod_eq]
    refine congrArg List.prod (List.map_congr_left fun s hs => ?_)
    rw [hc s hs, coef_perm h]

theorem Spec.SameReaction.product {q q' : RawEqn} (h : SameReaction q q') {c c' : Str → ℝ}
    (hc : ∀ s ∈ names (chemReactants q), c s = c' s) : codeProduct q c = codeProduct q' c' :=
  codeProduct_perm h.reactants hc

theorem mem_occurrences {q : RawEqn} {s : Str} :
    s ∈ occurrences q ↔ s ∈ names (chemReactants q) ∨ s ∈ names (chemProducts q) := by
  simp only [occurrences, chemReactants, chemProducts, names, List.mem_filter, List.mem_append, List.mem_map]
  constructor
  · rintro ⟨⟨p, hp, rfl⟩ | ⟨p, hp, rfl⟩, h⟩
    · exact .inl ⟨p, ⟨hp, h⟩, rfl⟩
    · exact .inr ⟨p, ⟨hp, h⟩, rfl⟩
  · rintro (⟨p, ⟨hp, h⟩, rfl⟩ | ⟨p, ⟨hp, h⟩, rfl⟩)
    · exact ⟨.inl ⟨p, hp, rfl⟩, h⟩
    · exact ⟨.inr ⟨p, hp, rfl⟩, h⟩

theorem Spec.SameReaction.occurrences {q q' : RawEqn} (h : SameReaction q q') (s : Str) :
    s ∈ Spec.occurrences q ↔ s ∈ Spec.occurrences q' := by
  rw [mem_occurrences, mem_occurrences, (names_perm h.reactants).mem_iff, (names_perm h.products).mem_iff]

/-! ## Systems -/

section

variable {text text' : Str} {m m' : Mechanism} {qs qs' : List RawEqn}

/-- **C100**: both files have the same species. -/
theorem C100_same_species (h : extractMechanism text = .ok m) (hq : Reads text m.equations.toNat qs)
    (h' : extractMechanism text' = .ok m') (hq' : Reads text' m'.equations.toNat qs') (hre : Reordered qs qs')
    (s : Str) : (∃ i, m.tables.index.get? s = some i) ↔ ∃ i, m'.tables.index.get? s = some i := by
  rw [(extract_tables h hq).1, (extract_tables h' hq').1, indexed_iff, indexed_iff]
  constructor
  · rintro ⟨q, hqm, hs⟩
    obtain ⟨q', hqm', hsame⟩ := hre.left hqm
    exact ⟨q', hqm', (hsame.occurrences s).1 hs⟩
  · rintro ⟨q', hqm', hs⟩
    obtain ⟨q, hqm, hsame⟩ := hre.right hqm'
    exact ⟨q, hqm, (hsame.occurrences s).2 hs⟩

/-- The places of the species in the other file. -/
theorem places (h : extractMechanism text = .ok m) (hq : Reads text m.equations.toNat qs)
    (h' : extractMechanism text' = .ok m') (hq' : Reads text' m'.equations.toNat qs') (hre : Reordered qs qs')
    {n n' : ℕ} (hn : n = m.tables.species.length) (hn' : n' = m'.tables.species.length) :
    ∃ σ : Fin n' ≃ Fin n, ∀ s (i' : Fin n'), m'.tables.index.get? s = some (i' : ℕ) ↔
      m.tables.index.get? s = some (σ i' : ℕ) := by
  obtain ⟨sp, hsp, -⟩ := index_sum h hq hn
  obtain ⟨sp', hsp', -⟩ := index_sum h' hq' hn'
  have hto : ∀ i' : Fin n', ∃ i : Fin n, m.tables.index.get? (sp' i') = some (i : ℕ) := fun i' => by
    obtain ⟨i, hi⟩ := (C100_same_species h hq h' hq' hre (sp' i')).2 ⟨_, (hsp' i' _).2 rfl⟩
    exact ⟨⟨i, hn ▸ (C01_indices h i).1 ⟨_, hi⟩⟩, hi⟩
  have hback : ∀ i : Fin n, ∃ i' : Fin n', m'.tables.index.get? (sp i) = some (i' : ℕ) := fun i => by
    obtain ⟨i', hi⟩ := (C100_same_species h hq h' hq' hre (sp i)).1 ⟨_, (hsp i _).2 rfl⟩
    exact ⟨⟨i', hn' ▸ (C01_indices h' i').1 ⟨_, hi⟩⟩, hi⟩
  choose fwd hto using hto
  choose back hback using hback
  have e1 : ∀ i', sp (fwd i') = sp' i' := fun i' => ((hsp _ _).1 (hto i')).symm
  have e2 : ∀ i, sp' (back i) = sp i := fun i => ((hsp' _ _).1 (hback i)).symm
  refine ⟨⟨fwd, back, fun i' => ?_, fun i => ?_⟩, fun s i' => ?_⟩
  · have h1 := hback (fwd i')
    rw [e1, (hsp' i' _).2 rfl] at h1
    exact (Fin.ext (Option.some.inj h1)).symm
  · have h1 := hto (back i)
    rw [e2, (hsp i _).2 rfl] at h1
    exact (Fin.ext (Option.some.inj h1)).symm
  · rw [hsp', Equiv.coe_fn_mk, hsp, e1]

theorem sameByName_iff {n n' : ℕ} {σ : Fin n' ≃ Fin n} (h' : extractMechanism text' = .ok m')
    (hn' : n' = m'.tables.species.length)
    (hσ : ∀ s (i' : Fin n'), m'.tables.index.get? s = some (i' : ℕ) ↔ m.tables.index.get? s = some (σ i' : ℕ))
    (y : Fin n → ℝ) (y' : Fin n' → ℝ) : SameByName m m' y y' ↔ y' = y ∘ σ := by
  constructor
  · intro hy
    funext i'
    obtain ⟨s, hs⟩ := (C01_indices h' i').2 (hn' ▸ i'.2)
    exact (hy s (σ i') i' ((hσ s i').1 hs) hs).symm
  · rintro rfl s i i' hi hi'
    rw [(hσ s i').1 hi'] at hi
    rw [Function.comp_apply, Fin.ext (Option.some.inj hi)]

/-- What both states hold for a name. -/
theorem Spec.SameByName.lookup (h : extractMechanism text = .ok m) (hq : Reads text m.equations.toNat qs)
    (h' : extractMechanism text' = .ok m') (hq' : Reads text' m'.equations.toNat qs') (hre : Reordered qs qs')
    {n n' : ℕ} (hn : n = m.tables.species.length) (hn' : n' = m'.tables.species.length)
    {y : Fin n → ℝ} {y' : Fin n' → ℝ} (hy : SameByName m m' y y') (s : Str) :
    (m.tables.index.get? s).map (stateOf y) = (m'.tables.index.get? s).map (stateOf y') := by
  by_cases hs : ∃ i, m.tables.index.get? s = some i
  · obtain ⟨i, hi⟩ := hs
    obtain ⟨i', hi'⟩ := (C100_same_species h hq h' hq' hre s).1 ⟨i, hi⟩
    have hl : i < n := hn ▸ (C01_indices h i).1 ⟨_, hi⟩
    have hl' : i' < n' := hn' ▸ (C01_indices h' i').1 ⟨_, hi'⟩
    rw [hi, hi', Option.map_some, Option.map_some]
    unfold stateOf
    rw [dif_pos hl, dif_pos hl', hy s ⟨i, hl⟩ ⟨i', hl'⟩ hi hi']
  · have hs' : ¬ ∃ i, m'.tables.index.get? s = some i := fun hc =>
      hs ((C100_same_species h hq h' hq' hre s).2 hc)
    have e : ∀ {o : Option ℕ}, (¬ ∃ i, o = some i) → o = none := fun {o} ho => by
      cases o with
      | none => rfl
      | some i => exact absurd ⟨i, rfl⟩ ho
    rw [e hs, e hs']
    rfl

variable {A A' : Str → ℕ → ℝ} {rates rates' : Rates} {start h2o temp : ℝ} {n n' : ℕ}
  {F : ℝ → (Fin n → ℝ) → Fin n → ℝ} {F' : ℝ → (Fin n' → ℝ) → Fin n' → ℝ}

/-- The kinetic value of a species is the same for both files. -/
theorem kineticValue_reordered (h : extractMechanism text = .ok m) (hq : Reads text m.equations.toNat qs)
    (hre : Reordered qs qs')
    {a a' : RawEqn → Str → ℝ} (hA : ∀ s (e : ℕ) q, qs[e]? = some q → A s e = a q s)
    (hA' : ∀ s (e : ℕ) q, qs'[e]? = some q → A' s e = a' q s)
    (ha : ∀ q q', SameReaction q q' → a q = a' q') {K : Str → ℝ → ℝ → ℝ} (hK : RatesByText qs rates h2o temp K)
    (hK' : RatesByText qs' rates' h2o temp K) (t : ℝ) {y y' : ℕ → ℝ}
    (hlook : ∀ s, (m.tables.index.get? s).map y = (m'.tables.index.get? s).map y') (s : Str) :
    kineticValue m qs A rates start h2o temp s t y = kineticValue m' qs' A' rates' start h2o temp s t y' := by
  have hr : ((ro2Indices m.tables.index).map y).sum = ((ro2Indices m'.tables.index).map y').sum := by
    rw [ro2Indices_eq, ro2Indices_eq, List.map_filterMap, List.map_filterMap]
    congr 2
    funext s
    exact hlook s
  unfold kineticValue
  by_cases hx : s ∈ heldConstant
  · rw [if_pos hx, if_pos hx]
  rw [if_neg hx, if_neg hx, hr, sum_range_getElem (g := fun q => a q s * (codeProduct q (concOf m.tables y) *
      K q.rate (start + t) ((ro2Indices m'.tables.index).map y').sum)),
    sum_range_getElem (g := fun q => a' q s * (codeProduct q (concOf m'.tables y') *
      K q.rate (start + t) ((ro2Indices m'.tables.index).map y').sum))]
  · refine hre.sum fun q hqm q' hsame => ?_
    rw [ha q q' hsame, hsame.rate, hsame.product (c' := concOf m'.tables y')]
    intro x hx
    obtain ⟨j, hj⟩ := (indexed_iff qs x).2 ⟨q, hqm, mem_occurrences.2 (.inl hx)⟩
    rw [← (extract_tables h hq).1] at hj
    have hl := hlook x
    rw [hj, Option.map_some] at hl
    obtain ⟨j', hj', e⟩ := Option.map_eq_some_iff.1 hl.symm
    rw [← concOf_holds _ _ _ _ hj, ← concOf_holds _ _ _ _ hj', e]
  · intro e q he
    rw [hA' s e q he, hK' e q he]
    unfold reactionProduct
    rw [he]
  · intro e q he
    rw [hA s e q he, hK e q he]
    unfold reactionProduct
    rw [he]

/-- The tendencies of the species are the same for both files. -/
theorem kinetic_reordered (h : extractMechanism text = .ok m) (hq : Reads text m.equations.toNat qs)
    (h' : extractMechanism text' = .ok m') (hq' : Reads text' m'.equations.toNat qs') (hre : Reordered qs qs')
    (hF : KineticSystem m qs A rates start h2o temp F) (hF' : KineticSystem m' qs' A' rates' start h2o temp F')
    {a a' : RawEqn → Str → ℝ} (hA : ∀ s (e : ℕ) q, qs[e]? = some q → A s e = a q s)
    (hA' : ∀ s (e : ℕ) q, qs'[e]? = some q → A' s e = a' q s)
    (ha : ∀ q q', SameReaction q q' → a q = a' q') {K : Str → ℝ → ℝ → ℝ} (hK : RatesByText qs rates h2o temp K)
    (hK' : RatesByText qs' rates' h2o temp K) (t : ℝ) {y : Fin n → ℝ} {y' : Fin n' → ℝ}
    (hy : SameByName m m' y y') : SameByName m m' (F t y) (F' t y') := by
  intro s i i' hi hi'
  rw [hF.value s i hi, hF'.value s i' hi']
  exact kineticValue_reordered h hq hre hA hA' ha hK hK' t (hy.lookup h hq h' hq' hre hF.size hF'.size) s

/-- What a reaction adds to a species in the Python version. -/
noncomputable def netOf (q : RawEqn) (s : Str) : ℝ :=
  ((gainCoef (asRecorded q) s).getD 0 : ℝ) - (coef (chemReactants q) s : ℝ)

/-- What a reaction adds to a species in the Fortran version. -/
noncomputable def netOfF (q : RawEqn) (s : Str) : ℝ :=
  (offByOne (gainCoef (asRecorded q) s) : ℝ) -
    (offByOne (if s ∈ names (chemReactants q) then some (coef (chemReactants q) s) else none) : ℝ)

theorem net_of (h : extractMechanism text = .ok m) (hq : Reads text m.equations.toNat qs) (s : Str) (e : ℕ) (q : RawEqn)
    (he : qs[e]? = some q) : netRecorded m.tables s e = netOf q s := by
  rw [net_recorded h hq he, netOf, gainCoef_asRecorded, coef_recorded]

theorem netF_of (h : extractMechanism text = .ok m) (hq : Reads text m.equations.toNat qs) (s : Str) (e : ℕ) (q : RawEqn)
    (he : qs[e]? = some q) : netFortran m.tables s e = netOfF q s := by
  unfold netFortran netOfF
  rw [C99_recorded h hq, C05_loss_coefficients h hq, he, Option.bind_some, Option.bind_some]

theorem netOf_same (q q' : RawEqn) (h : SameReaction q q') : netOf q = netOf q' := by
  funext s
  unfold netOf
  rw [h.recorded, coef_perm h.reactants]

theorem netOfF_same (q q' : RawEqn) (h : SameReaction q q') : netOfF q = netOfF q' := by
  funext s
  unfold netOfF
  rw [h.recorded, coef_perm h.reactants, if_congr (names_perm h.reactants).mem_iff rfl rfl]

/-- **C100**: in states that hold the same for every species, `dydt_func` of both mechanisms gives every species the
same tendency. -/
theorem C100_tendencies (h : extractMechanism text = .ok m) (hq : Reads text m.equations.toNat qs)
    (h' : extractMechanism text' = .ok m') (hq' : Reads text' m'.equations.toNat qs') (hre : Reordered qs qs')
    (hF : GasSystem m rates start h2o temp F) (hF' : GasSystem m' rates' start h2o temp F')
    {K : Str → ℝ → ℝ → ℝ} (hK : RatesByText qs rates h2o temp K)
    (hK' : RatesByText qs' rates' h2o temp K) (t : ℝ) {y : Fin n → ℝ} {y' : Fin n' → ℝ}
    (hy : SameByName m m' y y') : SameByName m m' (F t y) (F' t y') :=
  kinetic_reordered h hq h' hq' hre (hF.kinetic h hq) (hF'.kinetic h' hq') (net_of h hq) (net_of h' hq') netOf_same hK hK'
    t hy

/-- C100, the same for the Fortran version, for any numbers of cores. -/
theorem C100_tendencies_fortran (h : extractMechanism text = .ok m) (hq : Reads text m.equations.toNat qs)
    (h' : extractMechanism text' = .ok m') (hq' : Reads text' m'.equations.toNat qs') (hre : Reordered qs qs')
    {cores cores' : Option ℕ}
    (hF : GasSystemF m cores rates start h2o temp F) (hF' : GasSystemF m' cores' rates' start h2o temp F')
    {K : Str → ℝ → ℝ → ℝ} (hK : RatesByText qs rates h2o temp K)
    (hK' : RatesByText qs' rates' h2o temp K) (t : ℝ) {y : Fin n → ℝ} {y' : Fin n' → ℝ}
    (hy : SameByName m m' y y') : SameByName m m' (F t y) (F' t y') :=
  kinetic_reordered h hq h' hq' hre (hF.kinetic h hq) (hF'.kinetic h' hq') (netF_of h hq) (netF_of h' hq') netOfF_same
    hK hK' t hy

end

/-! ## Runs -/

section

variable {ι κ : Type} [Fintype ι] [Fintype κ]

theorem SolvesOn.rename {F : ℝ → (ι → ℝ) → ι → ℝ} {F' : ℝ → (κ → ℝ) → κ → ℝ} (σ : κ ≃ ι)
    (hc : ∀ t y, F' t (y ∘ σ) = F t y ∘ σ) {u : ℝ → κ → ℝ} {a b : ℝ} (hu : SolvesOn F' u a b) :
    SolvesOn F (fun t => u t ∘ σ.symm) a b := by
  obtain ⟨h1, S, hS, h2⟩ := hu
  refine ⟨continuousOn_pi.2 fun i => (continuousOn_pi.1 h1) _, S, hS, fun t ht htS => ?_⟩
  have h3 := hasDerivWithinAt_pi.1 (h2 t ht htS)
  refine hasDerivWithinAt_pi.2 fun i => ?_
  have h4 := h3 (σ.symm i)
  have e : F' t (u t) (σ.symm i) = F t (u t ∘ σ.symm) i := by
    have h5 := congrFun (hc t (u t ∘ σ.symm)) (σ.symm i)
    have e1 : (u t ∘ σ.symm) ∘ σ = u t := by
      funext k
      simp
    rw [e1] at h5
    rw [h5]
    simp
  rw [e] at h4
  exact h4

omit [Fintype ι] [Fintype κ] in
theorem afterBatches_rename (σ : κ ≃ ι) (solve : (κ → ℝ) → ℚ → κ → ℝ) (batch : ℚ) (y : ι → ℝ) (k : ℕ) :
    afterBatches (fun y b => solve (y ∘ σ) b ∘ σ.symm) batch y k =
      afterBatches solve batch (y ∘ σ) k ∘ σ.symm := by
  unfold afterBatches
  induction k with
  | zero =>
    funext i
    simp
  | succ k ih =>
    have e : ∀ z : κ → ℝ, (z ∘ σ.symm) ∘ σ = z := fun z => by
      funext k
      simp
    rw [Function.iterate_succ_apply', Function.iterate_succ_apply', ih]
    dsimp only
    rw [e]

/-- Two systems that differ in the places of the components: exact solvers report the same rows. -/
theorem Tame.rows_renamed {F : ℝ → (ι → ℝ) → ι → ℝ} {F' : ℝ → (κ → ℝ) → κ → ℝ} (hF : Tame F) (hB : BoxPieces F)
    (σ : κ ≃ ι) (hc : ∀ t y, F' t (y ∘ σ) = F t y ∘ σ) {solve : (ι → ℝ) → ℚ → ι → ℝ}
    {solve' : (κ → ℝ) → ℚ → κ → ℝ} {sim batch : ℚ} (hs : 0 < sim) (hb : 0 < batch) {zero y0 : ι → ℝ}
    {zero' : κ → ℝ} (hy0 : ∀ i, 0 ≤ y0 i) {times times' : List ℚ} {rows : List (ι → ℝ)} {rows' : List (κ → ℝ)}
    (hrun : runSimulation id solve zero y0 sim batch = .ok (times, rows))
    (hrun' : runSimulation id solve' zero' (y0 ∘ σ) sim batch = .ok (times', rows'))
    (hex : ExactBatches F solve batch y0 rows.length)
    (hex' : ExactBatches F' solve' batch (y0 ∘ σ) rows'.length) :
    times = times' ∧ rows' = rows.map (· ∘ σ) := by
  obtain ⟨k, ht, hr, hk⟩ := C32_output_times hs hb hrun'
  have hk0 : 0 < k := by
    rcases Nat.eq_zero_or_pos k with rfl | h
    · rw [Nat.cast_zero, zero_mul] at hk
      exact absurd hk hs.ne'
    · exact h
  have hrun2 := C32_C33_whole_batches hk0 hb (exact_id batch k) (fun y b => solve' (y ∘ σ) b ∘ σ.symm) zero y0
  rw [← hk, ← ht] at hrun2
  have hlen : rows'.length = k := by rw [hr, List.length_map, List.length_range]
  obtain ⟨h1, h2⟩ := hF.rows_unique hB hs hb hy0 hrun hrun2 hex fun j hj => by
    rw [List.length_map, List.length_range, ← hlen] at hj
    obtain ⟨u, u0, hu, u1⟩ := hex' j hj
    refine ⟨fun t => u t ∘ σ.symm, ?_, SolvesOn.rename σ hc hu, ?_⟩
    · dsimp only
      rw [afterBatches_rename, u0]
    · dsimp only
      rw [afterBatches_rename, u1]
  refine ⟨h1, ?_⟩
  rw [h2, hr, List.map_map]
  refine List.map_congr_left fun j _ => ?_
  dsimp only [Function.comp_apply]
  rw [afterBatches_rename]
  funext i
  simp

end

section

variable {text text' : Str} {m m' : Mechanism} {qs qs' : List RawEqn} {A A' : Str → ℕ → ℝ} {rates rates' : Rates}
  {start h2o temp : ℝ} {n n' : ℕ} {F : ℝ → (Fin n → ℝ) → Fin n → ℝ} {F' : ℝ → (Fin n' → ℝ) → Fin n' → ℝ}
  {solve : (Fin n → ℝ) → ℚ → Fin n → ℝ} {solve' : (Fin n' → ℝ) → ℚ → Fin n' → ℝ} {sim batch : ℚ}
  {zero y0 : Fin n → ℝ} {zero' y0' : Fin n' → ℝ} {times times' : List ℚ} {rows : List (Fin n → ℝ)}
  {rows' : List (Fin n' → ℝ)}

theorem kinetic_rows (h : extractMechanism text = .ok m) (hq : Reads text m.equations.toNat qs)
    (h' : extractMechanism text' = .ok m') (hq' : Reads text' m'.equations.toNat qs') (hre : Reordered qs qs')
    (hF : KineticSystem m qs A rates start h2o temp F) (hF' : KineticSystem m' qs' A' rates' start h2o temp F')
    (hL : LossOnly qs A) (hpos : ∀ q ∈ qs, ∀ p ∈ chemReactants q ++ chemProducts q, 0 < p.1)
    (hone : WholeReactants qs) (hr : PiecewiseRates rates start h2o temp)
    (hsys : ∀ t (y : Fin n → ℝ) (y' : Fin n' → ℝ), SameByName m m' y y' → SameByName m m' (F t y) (F' t y'))
    (hs : 0 < sim) (hb : 0 < batch) (hy0 : ∀ i, 0 ≤ y0 i) (hyy : SameByName m m' y0 y0')
    (hrun : runSimulation id solve zero y0 sim batch = .ok (times, rows))
    (hrun' : runSimulation id solve' zero' y0' sim batch = .ok (times', rows'))
    (hex : ExactBatches F solve batch y0 rows.length) (hex' : ExactBatches F' solve' batch y0' rows'.length) :
    times = times' ∧ List.Forall₂ (SameByName m m') rows rows' := by
  obtain ⟨σ, hσ⟩ := places h hq h' hq' hre hF.size hF'.size
  have hiff := sameByName_iff (m := m) h' hF'.size hσ
  obtain rfl := (hiff y0 y0').1 hyy
  obtain ⟨h1, rfl⟩ := (hF.tame h hL (left_pos hpos) hone hr.regular).rows_renamed (hF.boxPieces h hone hr) σ
    (fun t y => (hiff _ _).1 (hsys t y _ ((hiff _ _).2 rfl))) hs hb hy0 hrun hrun' hex hex'
  refine ⟨h1, ?_⟩
  rw [List.forall₂_map_right_iff]
  exact List.forall₂_same.2 fun y _ => (hiff _ _).2 rfl

/-- **C100**: two simulations with exact solvers, of mechanism files that list the same reactions in different orders,
started with the same concentrations, report the same times and the same concentration of every species at each. -/
theorem C100_rows (h : extractMechanism text = .ok m) (hq : Reads text m.equations.toNat qs)
    (h' : extractMechanism text' = .ok m') (hq' : Reads text' m'.equations.toNat qs') (hre : Reordered qs qs')
    (hpos : ∀ q ∈ qs, ∀ p ∈ chemReactants q ++ chemProducts q, 0 < p.1) (hone : WholeReactants qs)
    (hr : PiecewiseRates rates start h2o temp)
    (hF : GasSystem m rates start h2o temp F) (hF' : GasSystem m' rates' start h2o temp F')
    {K : Str → ℝ → ℝ → ℝ} (hK : RatesByText qs rates h2o temp K) (hK' : RatesByText qs' rates' h2o temp K)
    (hs : 0 < sim) (hb : 0 < batch) (hy0 : ∀ i, 0 ≤ y0 i) (hyy : SameByName m m' y0 y0')
    (hrun : runSimulation id solve zero y0 sim batch = .ok (times, rows))
    (hrun' : runSimulation id solve' zero' y0' sim batch = .ok (times', rows'))
    (hex : ExactBatches F solve batch y0 rows.length) (hex' : ExactBatches F' solve' batch y0' rows'.length) :
    times = times' ∧ List.Forall₂ (SameByName m m') rows rows' :=
  kinetic_rows h hq h' hq' hre (hF.kinetic h hq) (hF'.kinetic h' hq') (recorded_loss_only h hq hpos).1 hpos hone hr
    (fun t _ _ hy => C100_tendencies h hq h' hq' hre hF hF' hK hK' t hy) hs hb hy0 hyy hrun hrun' hex hex'

/-- C100, the same for the Fortran version, for any numbers of cores. -/
theorem C100_rows_fortran (h : extractMechanism text = .ok m) (hq : Reads text m.equations.toNat qs)
    (h' : extractMechanism text' = .ok m') (hq' : Reads text' m'.equations.toNat qs') (hre : Reordered qs qs')
    (hpos : ∀ q ∈ qs, ∀ p ∈ chemReactants q ++ chemProducts q, 0 < p.1) (hone : WholeReactants qs)
    (hr : PiecewiseRates rates start h2o temp) {cores cores' : Option ℕ}
    (hF : GasSystemF m cores rates start h2o temp F) (hF' : GasSystemF m' cores' rates' start h2o temp F')
    {K : Str → ℝ → ℝ → ℝ} (hK : RatesByText qs rates h2o temp K) (hK' : RatesByText qs' rates' h2o temp K)
    (hs : 0 < sim) (hb : 0 < batch) (hy0 : ∀ i, 0 ≤ y0 i) (hyy : SameByName m m' y0 y0')
    (hrun : runSimulation id solve zero y0 sim batch = .ok (times, rows))
    (hrun' : runSimulation id solve' zero' y0' sim batch = .ok (times', rows'))
    (hex : ExactBatches F solve batch y0 rows.length) (hex' : ExactBatches F' solve' batch y0' rows'.length) :
    times = times' ∧ List.Forall₂ (SameByName m m') rows rows' :=
  kinetic_rows h hq h' hq' hre (hF.kinetic h hq) (hF'.kinetic h' hq') (recorded_loss_only h hq hpos).2 hpos hone hr
    (fun t _ _ hy => C100_tendencies_fortran h hq h' hq' hre hF hF' hK hK' t hy) hs hb hy0 hyy hrun hrun' hex hex'

/-! ## From the texts of the generated files -/

/-- The value a rate text stands for. -/
noncomputable def textValue (b : Backend) (convert : Str → Str) (h2o temp : ℝ) (txt : Str) (t r : ℝ) : ℝ :=
  ((readExpr b (convert txt)).map fun x => x.val (conditions b temp t r h2o)).getD 0

theorem generated_by_text (h : extractMechanism text = .ok m) (hq : Reads text m.equations.toNat qs) {b : Backend}
    (hb : b ≠ .python) {cores : Option ℕ} {conv : ℕ} (hread : ReadableRates b ((convertOf b)^[conv]) qs) {p : List Stmt}
    (hp : program b (ratesFile b cores ((convertTable (convertOf b))^[conv] m.tables.rate)) = some p) (junk : Vals)
    (h2o temp : ℝ) :
    RatesByText qs (generatedRates b p junk) h2o temp (textValue b ((convertOf b)^[conv]) h2o temp) := by
  intro e q he t r
  have hlt : e < qs.length := (List.getElem?_eq_some_iff.1 he).1
  rw [generated_textRate h hq hb hread hp junk temp t r h2o hlt]
  unfold textRate textValue
  rw [he, Option.bind_some]

theorem KineticSystem.congr_rates (hF : KineticSystem m qs A rates start h2o temp F)
    (hr : ∀ t r e, e < qs.length → rates t r h2o temp e = rates' t r h2o temp e) :
    KineticSystem m qs A rates' start h2o temp F := by
  refine ⟨hF.size, fun s i hs t z => ?_⟩
  rw [hF.value s i hs]
  unfold kineticValue
  by_cases hx : s ∈ heldConstant
  · rw [if_pos hx, if_pos hx]
  · rw [if_neg hx, if_neg hx]
    exact Finset.sum_congr rfl fun e he => by rw [hr _ _ _ (Finset.mem_range.1 he)]

variable {conv : ℕ} {num num' : ℚ → Str} {f f' : GasFiles} {junk junk' : Vals}

/-- **C100**, Python version: the same for the systems given by the texts of the generated files. -/
theorem C100_files_python (h : extractMechanism text = .ok m) (hq : Reads text m.equations.toNat qs)
    (h' : extractMechanism text' = .ok m') (hq' : Reads text' m'.equations.toNat qs') (hre : Reordered qs qs')
    (hpos : ∀ q ∈ qs, ∀ p ∈ chemReactants q ++ chemProducts q, 0 < p.1) (hone : WholeReactants qs)
    (hw : Prints num id m.tables) (hw' : Prints num' id m'.tables)
    (hf : f.WrittenPython m conv num) (hf' : f'.WrittenPython m' conv num')
    (hread : ReadableRates .numba ((convertOf .numba)^[conv]) qs)
    (hnn : NonnegRates .numba ((convertOf .numba)^[conv]) qs h2o temp)
    (hF : PythonSystem f m junk start h2o temp F) (hF' : PythonSystem f' m' junk' start h2o temp F')
    (hs : 0 < sim) (hb : 0 < batch) (hy0 : ∀ i, 0 ≤ y0 i) (hyy : SameByName m m' y0 y0')
    (hrun : runSimulation id solve zero y0 sim batch = .ok (times, rows))
    (hrun' : runSimulation id solve' zero' y0' sim batch = .ok (times', rows'))
    (hex : ExactBatches F solve batch y0 rows.length) (hex' : ExactBatches F' solve' batch y0' rows'.length) :
    times = times' ∧ List.Forall₂ (SameByName m m') rows rows' := by
  have hread' : ReadableRates .numba ((convertOf .numba)^[conv]) qs' := fun q' hqm' => by
    obtain ⟨q, hqm, hsame⟩ := hre.right hqm'
    rw [← hsame.rate]
    exact hread q hqm
  obtain ⟨p, hp, -⟩ := C66_value h hq (b := .numba) (by decide) none hread
  obtain ⟨p', hp', -⟩ := C66_value h' hq' (b := .numba) (by decide) none hread'
  have hG := ((C73_system_python h hw hf (hf.rates ▸ hp)).1 hF).congr h hq
    (rates' := generatedRates .numba p fun _ => 0) fun t r e he => by
      rw [generated_textRate h hq (by decide) hread hp junk temp _ _ h2o he,
        generated_textRate h hq (by decide) hread hp (fun _ => 0) temp _ _ h2o he]
  exact C100_rows h hq h' hq' hre hpos hone (C66_piecewise h hq (by decide) hread hp (fun _ => le_refl _) start hnn) hG
    ((C73_system_python h' hw' hf' (hf'.rates ▸ hp')).1 hF') (generated_by_text h hq (by decide) hread hp _ h2o temp)
    (generated_by_text h' hq' (by decide) hread' hp' _ h2o temp) hs hb hy0 hyy hrun hrun' hex hex'

/-- **C100**, Fortran version: the same for the systems given by the texts of the generated files, which may be for
different numbers of cores. -/
theorem C100_files_fortran (h : extractMechanism text = .ok m) (hq : Reads text m.equations.toNat qs)
    (h' : extractMechanism text' = .ok m') (hq' : Reads text' m'.equations.toNat qs') (hre : Reordered qs qs')
    (hpos : ∀ q ∈ qs, ∀ p ∈ chemReactants q ++ chemProducts q, 0 < p.1) (hone : WholeReactants qs)
    (hw : Prints num id m.tables) (hw' : Prints num' id m'.tables) {cores cores' : Option ℕ}
    (hf : f.WrittenFortran m cores conv num) (hf' : f'.WrittenFortran m' cores' conv num')
    (hread : ReadableRates .fortran ((convertOf .fortran)^[conv]) qs)
    (hnn : NonnegRates .fortran ((convertOf .fortran)^[conv]) qs h2o temp)
    (hF : FortranSystem f m junk start h2o temp F) (hF' : FortranSystem f' m' junk' start h2o temp F')
    (hs : 0 < sim) (hb : 0 < batch) (hy0 : ∀ i, 0 ≤ y0 i) (hyy : SameByName m m' y0 y0')
    (hrun : runSimulation id solve zero y0 sim batch = .ok (times, rows))
    (hrun' : runSimulation id solve' zero' y0' sim batch = .ok (times', rows'))
    (hex : ExactBatches F solve batch y0 rows.length) (hex' : ExactBatches F' solve' batch y0' rows'.length) :
    times = times' ∧ List.Forall₂ (SameByName m m') rows rows' := by
  have hread' : ReadableRates .fortran ((convertOf .fortran)^[conv]) qs' := fun q' hqm' => by
    obtain ⟨q, hqm, hsame⟩ := hre.right hqm'
    rw [← hsame.rate]
    exact hread q hqm
  obtain ⟨p, hp, -⟩ := C66_value h hq (b := .fortran) (by decide) cores hread
  obtain ⟨p', hp', -⟩ := C66_value h' hq' (b := .fortran) (by decide) cores' hread'
  have hG := (C73_system_fortran h hw hf (hf.rates ▸ hp)).1 hF
  have hG' := (C73_system_fortran h' hw' hf' (hf'.rates ▸ hp')).1 hF'
  have hk := (hG.kinetic h hq).congr_rates (rates' := generatedRates .fortran p fun _ => 0) fun t r e he => by
      rw [generated_textRate h hq (by decide) hread hp junk temp _ _ h2o he,
        generated_textRate h hq (by decide) hread hp (fun _ => 0) temp _ _ h2o he]
  exact kinetic_rows h hq h' hq' hre hk (hG'.kinetic h' hq') (recorded_loss_only h hq hpos).2 hpos hone
    (C66_piecewise h hq (by decide) hread hp (fun _ => le_refl _) start hnn)
    (fun t _ _ hy => C100_tendencies_fortran h hq h' hq' hre hG hG' (generated_by_text h hq (by decide) hread hp _ h2o temp)
      (generated_by_text h' hq' (by decide) hread' hp' _ h2o temp) t hy) hs hb hy0 hyy hrun hrun' hex hex'

end

/-! ## A case the theorems apply to -/

/-- `radicalText` with the reactions and the species of every reaction in other orders. -/
def swappedText : Str := "{1.}NO2=O+NO:J(4);{2.}NO+CH3O2=NO2+HCHO:2.30D-12*EXP(360/TEMP);".toList

def swappedReactions : List RawEqn :=
  [{ reactants := [(1, "NO2".toList)], products := [(1, "O".toList), (1, "NO".toList)],
     rate := "J(4)".toList },
   { reactants := [(1, "NO".toList), (1, "CH3O2".toList)],
     products := [(1, "NO2".toList), (1, "HCHO".toList)],
     rate := "2.30D-12*EXP(360/TEMP)".toList }]

theorem swapped_parses :
    extractMechanism swappedText = .ok { tables := build swappedReactions, equations := 2 } := by
  rw [extract_ok_iff]
  refine ⟨"2.".toList, 2, swappedReactions, ?_, by decide +kernel, ?_, rfl⟩
  · rw [labels_eq _ (not_mem_removeChar _ _)]; decide +kernel
  · rw [bodies_eq _ (not_mem_removeChar _ _)]; decide +kernel

theorem swapped_reads : Reads swappedText 2 swappedReactions := by
  unfold Reads bodyTexts; decide +kernel

theorem swapped_reordered : Reordered radicalReactions swappedReactions := by
  refine ⟨[radicalReactions[1], radicalReactions[0]], List.Perm.swap _ _ _, ?_⟩
  have hg := fun q hq => (radical_regular q hq).gain
  have hg' : ∀ q ∈ swappedReactions, GainGood q := by decide +kernel
  refine .cons (.of_good (hg _ (List.getElem_mem _)) (hg' _ List.mem_cons_self) ?_ ?_ rfl)
    (.cons (.of_good (hg _ (List.getElem_mem _)) (hg' _ (List.mem_cons_of_mem _ List.mem_cons_self)) ?_ ?_ rfl) .nil)
  all_goals decide +kernel

/-- The components of the two states are in different places. -/
theorem swapped_places :
    ((build radicalReactions).index.get? "CH3O2".toList = some 0 ∧ (build radicalReactions).index.get? "NO2".toList = some 3) ∧
    (build swappedReactions).index.get? "CH3O2".toList = some 3 ∧ (build swappedReactions).index.get? "NO2".toList = some 0 := by
  decide +kernel

theorem weight_perm (w : Str → ℝ) {l l' : List (ℚ × Str)} (h : l.Perm l') : weight w l = weight w l' :=
  (h.map _).sum_eq

/-- The files of the Python version for `swappedText`. -/
def swappedPython : GasFiles where
  rates := ratesFile .numba none ((convertTable (convertOf .numba))^[1] (build swappedReactions).rate)
  reactants := match writeReactantsPy (build swappedReactions).gen 2 with
    | .ok P => fileText reactantsPyLayout shortNum [] 5 2 P
    | .error _ => []
  lossGain := fileText lossGainPyLayout shortNum [] 5 2 (writeLossGainPy (build swappedReactions).gen)

theorem swapped_prints : Prints shortNum id (build swappedReactions) :=
  shortNum_prints (by decide +kernel) (by decide +kernel)

theorem swapped_five : (build swappedReactions).species.length = 5 := by decide +kernel

theorem swappedPython_written : swappedPython.WrittenPython ⟨build swappedReactions, 2⟩ 1 shortNum where
  rates := rfl
  reactants := by
    obtain ⟨P, hP, -⟩ := C70_rhs_python swapped_parses swapped_prints 5
    refine ⟨P, [], hP, by simp, ?_⟩
    have hP' : writeReactantsPy (build swappedReactions).gen 2 = .ok P := hP
    show (match writeReactantsPy (build swappedReactions).gen 2 with
      | .ok P => fileText reactantsPyLayout shortNum [] 5 2 P
      | .error _ => []) = fileText reactantsPyLayout shortNum [] (build swappedReactions).species.length 2 P
    rw [hP', swapped_five]
  lossGain := ⟨[], by simp, by rw [swapped_five]; rfl⟩

theorem swapped_weights : ∀ s i, (build swappedReactions).index.get? s = some i → s ∉ heldConstant →
    ∃ w : Str → ℝ, (∀ s, 0 ≤ w s) ∧ 0 < w s ∧ (∀ s ∈ heldConstant, w s = 0) ∧
      ∀ q ∈ swappedReactions, NotGained w q := by
  intro s i hs hx
  obtain ⟨j, hj⟩ := (C100_same_species radical_parses radical_reads swapped_parses swapped_reads swapped_reordered s).2
    ⟨i, hs⟩
  obtain ⟨w, h1, h2, h3, h4⟩ := radical_weights s j hj hx
  refine ⟨w, h1, h2, h3, fun q' hq' => ?_⟩
  obtain ⟨q, hq, hsame⟩ := swapped_reordered.right hq'
  have := h4 q hq
  unfold NotGained at this ⊢
  rwa [← weight_perm w hsame.reactants, ← weight_perm w hsame.products]

/-- All hypotheses are met by the files of `radicalText` and `swappedText`: both have a system, both systems have exact
solvers, and two simulations started with the same concentrations report the same concentrations. -/
theorem swapped_run (junk junk' : Vals) {start h2o temp : ℝ} (hT : 0 < temp) (hh : 0 ≤ h2o) :
    ∃ (F F' : ℝ → (Fin 5 → ℝ) → Fin 5 → ℝ) (solve solve' : (Fin 5 → ℝ) → ℚ → Fin 5 → ℝ),
      PythonSystem radicalPython ⟨build radicalReactions, 2⟩ junk start h2o temp F ∧
      PythonSystem swappedPython ⟨build swappedReactions, 2⟩ junk' start h2o temp F' ∧
      ∀ y0 : Fin 5 → ℝ, (∀ i, 0 ≤ y0 i) → ∀ y0' : Fin 5 → ℝ,
        SameByName ⟨build radicalReactions, 2⟩ ⟨build swappedReactions, 2⟩ y0 y0' →
        (∀ k, ExactBatches F solve 60 y0 k) ∧ (∀ k, ExactBatches F' solve' 60 y0' k) ∧
        ∃ rows rows', runSimulation id solve (fun _ => 0) y0 (((2 : ℕ) : ℚ) * 60) 60 = .ok ([60, 120], rows) ∧
          runSimulation id solve' (fun _ => 0) y0' (((2 : ℕ) : ℚ) * 60) 60 = .ok ([60, 120], rows') ∧
          List.Forall₂ (SameByName ⟨build radicalReactions, 2⟩ ⟨build swappedReactions, 2⟩) rows rows' := by
  obtain ⟨c1, -, -⟩ := radical_rates
  obtain ⟨n1, n2⟩ := rateTextCheck_reads c1
  have c1' : ∀ q ∈ swappedReactions, rateTextCheck .numba ((convertOf .numba)^[1] q.rate) = true := by
    intro q' hq'
    obtain ⟨q, hq, hsame⟩ := swapped_reordered.right hq'
    rw [← hsame.rate]
    exact c1 q hq
  obtain ⟨m1, m2⟩ := rateTextCheck_reads c1'
  obtain ⟨p, hp, -⟩ := C66_value radical_parses radical_reads (b := .numba) (by decide) none n1
  obtain ⟨p', hp', -⟩ := C66_value swapped_parses swapped_reads (b := .numba) (by decide) none m1
  obtain ⟨F, hF0⟩ := radical_system (generatedRates .numba p junk) start h2o temp
  obtain ⟨F', hF0'⟩ := gasSystem_exists swapped_parses
    (allWritten_of_good swapped_parses swapped_reads (by decide +kernel)) ⟨"CH3O2".toList, by decide +kernel⟩
    (generatedRates .numba p' junk') start h2o temp (n := 5) swapped_five.symm
  have hF := (C73_system_python radical_parses radical_prints radicalPython_written hp).2 hF0
  have hF' := (C73_system_python swapped_parses swapped_prints swappedPython_written hp').2 hF0'
  have hnn := C66_nonneg (b := .numba) (by decide) n1 n2 hT hh
  have hnn' := C66_nonneg (b := .numba) (by decide) m1 m2 hT hh
  have hpos' : (∀ q ∈ swappedReactions, ∀ p ∈ chemReactants q ++ chemProducts q, 0 < p.1) ∧
      (∀ q ∈ swappedReactions, ∀ s ∈ names (chemReactants q), 1 ≤ coef (chemReactants q) s) := by decide +kernel
  obtain ⟨solve, hs⟩ := C73_exists radical_parses radical_reads radical_positive.1 radical_positive.2
    radical_weights radical_prints radicalPython_written n1 hnn hF (batch := 60) (by norm_num)
  obtain ⟨solve', hs'⟩ := C73_exists swapped_parses swapped_reads hpos'.1 hpos'.2
    swapped_weights swapped_prints swappedPython_written m1 hnn' hF' (batch := 60) (by norm_num)
  refine ⟨F, F', solve, solve', hF, hF', fun y0 hy0 y0' hyy => ?_⟩
  have hy0' : ∀ i, 0 ≤ y0' i := by
    obtain ⟨σ, hσ⟩ := places (n := 5) (n' := 5) radical_parses radical_reads swapped_parses swapped_reads
      swapped_reordered radical_five.symm swapped_five.symm
    obtain rfl := (sameByName_iff (m := ⟨build radicalReactions, 2⟩) swapped_parses swapped_five.symm hσ y0 y0').1 hyy
    exact fun i => hy0 _
  refine ⟨hs y0 hy0, hs' y0' hy0', ?_⟩
  obtain ⟨rows, hrun, -⟩ := radical_batches solve y0
  obtain ⟨rows', hrun', -⟩ := radical_batches solve' y0'
  exact ⟨rows, rows', hrun, hrun', (C100_files_python radical_parses radical_reads swapped_parses swapped_reads
    swapped_reordered radical_positive.1 radical_positive.2 radical_prints swapped_prints radicalPython_written
    swappedPython_written n1 hnn hF hF' (by norm_num) (by norm_num) hy0 hyy hrun hrun' (hs y0 hy0 _) (hs' y0' hy0' _)).2⟩

/-! ## The order of the products -/

/-- Reaction 783 of the shipped alpha-pinene mechanism. -/
def shippedOrder : Str := "{1.}HCOCO3+HO2=HO2+CO+OH:KAPHO2*0.44;".toList

/-- The same reaction with the products in another order. -/
def otherOrder : Str := "{1.}HCOCO3+HO2=CO+OH+HO2:KAPHO2*0.44;".toList

def shippedOrderReactions : List RawEqn :=
  [{ reactants := [(1, "HCOCO3".toList), (1, "HO2".toList)],
     products := [(1, "HO2".toList), (1, "CO".toList), (1, "OH".toList)], rate := "KAPHO2*0.44".toList }]

def otherOrderReactions : List RawEqn :=
  [{ reactants := [(1, "HCOCO3".toList), (1, "HO2".toList)],
     products := [(1, "CO".toList), (1, "OH".toList), (1, "HO2".toList)], rate := "KAPHO2*0.44".toList }]

/-- C100: the condition on the recorded products cannot be dropped. The order of the products of one reaction decides
whether they are recorded (`/repo/Parse_eqn_file.py`, line 282): the first file records no `CO`, the second
does. -/
theorem C100_order_of_products :
    extractMechanism shippedOrder = .ok ⟨build shippedOrderReactions, 1⟩ ∧
    extractMechanism otherOrder = .ok ⟨build otherOrderReactions, 1⟩ ∧
    Reads shippedOrder 1 shippedOrderReactions ∧ Reads otherOrder 1 otherOrderReactions ∧
    List.Forall₂ (fun q q' => chemReactants q = chemReactants q' ∧ (chemProducts q).Perm (chemProducts q') ∧
      q.rate = q'.rate) shippedOrderReactions otherOrderReactions ∧
    cell (build shippedOrderReactions).gain "CO".toList 0 = none ∧
    cell (build otherOrderReactions).gain "CO".toList 0 = some 1 := by
  refine ⟨?_, ?_, by unfold Reads bodyTexts; decide +kernel, by unfold Reads bodyTexts; decide +kernel, ?_,
    by decide +kernel, by decide +kernel⟩
  · rw [extract_ok_iff]
    refine ⟨"1.".toList, 1, shippedOrderReactions, ?_, by decide +kernel, ?_, rfl⟩
    · rw [labels_eq _ (not_mem_removeChar _ _)]; decide +kernel
    · rw [bodies_eq _ (not_mem_removeChar _ _)]; decide +kernel
  · rw [extract_ok_iff]
    refine ⟨"1.".toList, 1, otherOrderReactions, ?_, by decide +kernel, ?_, rfl⟩
    · rw [labels_eq _ (not_mem_removeChar _ _)]; decide +kernel
    · rw [bodies_eq _ (not_mem_removeChar _ _)]; decide +kernel
  · refine .cons ⟨rfl, ?_, rfl⟩ .nil
    decide +kernel

end PyBox
