import Verif.Props.Reordered

/-!
# C103: adding reactions to a mechanism

What added reactions do to the species of a mechanism. Reactions that give back what they take of these species, as
those of tracers, leave the simulation of these species as it was, provided that the parser records them so.
-/

namespace PyBox

open Set Spec Rl

namespace Spec

/-- The reaction records as much of `s` on the right as on the left. -/
def LeavesAlone (q : RawEqn) (s : Str) : Prop :=
  gainCoef (asRecorded q) s = if s ∈ names (chemReactants q) then some (coef (chemReactants q) s) else none

/-- The second list holds the reactions of the first and `extra`, in any order. -/
def Extends (qs extra qs' : List RawEqn) : Prop := Reordered (qs ++ extra) qs'

/-- All peroxy radicals of the added reactions are species of the mechanism they are added to. -/
def SameRadicals (qs extra : List RawEqn) : Prop :=
  ∀ s ∈ ro2Names, (∃ q ∈ extra, s ∈ occurrences q) → ∃ q ∈ qs, s ∈ occurrences q

/-- No species of the mechanism is changed by the added reactions. -/
def Tracers (qs extra : List RawEqn) : Prop :=
  ∀ q ∈ extra, ∀ s, (∃ p ∈ qs, s ∈ occurrences p) → s ∉ heldConstant → LeavesAlone q s

end Spec

/-- A reaction that is recorded correctly leaves alone what it gives back as written. -/
theorem Spec.LeavesAlone.of_good {q : RawEqn} (hg : GainGood q) {s : Str}
    (hs : s ∈ names (chemReactants q) ↔ s ∈ names (chemProducts q)) (hc : coef (chemReactants q) s = coef (chemProducts q) s) :
    LeavesAlone q s := by
  unfold LeavesAlone
  rw [gainCoef_asRecorded, gainEntry_of_good hg, hc]
  exact if_congr hs.symm rfl rfl

theorem Spec.LeavesAlone.net {q : RawEqn} {s : Str} (h : LeavesAlone q s) : netOf q s = 0 := by
  unfold netOf
  rw [h]
  by_cases hs : s ∈ names (chemReactants q)
  · rw [if_pos hs, Option.getD_some, sub_self]
  · rw [if_neg hs, coef_of_not_mem hs, Option.getD_none, sub_self]

theorem Spec.LeavesAlone.netF {q : RawEqn} {s : Str} (h : LeavesAlone q s) : netOfF q s = 0 := by
  unfold netOfF
  rw [h, sub_self]

section

variable {text text' : Str} {m m' : Mechanism} {qs extra qs' : List RawEqn}

/-- **C103**: every species of the mechanism is a species of the extended one. -/
theorem C103_species (h : extractMechanism text = .ok m) (hq : Reads text m.equations.toNat qs)
    (h' : extractMechanism text' = .ok m') (hq' : Reads text' m'.equations.toNat qs') (hre : Extends qs extra qs')
    (s : Str) : (∃ i, m'.tables.index.get? s = some i) ↔
      (∃ i, m.tables.index.get? s = some i) ∨ ∃ q ∈ extra, s ∈ occurrences q := by
  rw [(extract_tables h hq).1, (extract_tables h' hq').1, indexed_iff, indexed_iff]
  constructor
  · rintro ⟨q', hqm', hs⟩
    obtain ⟨q, hqm, hsame⟩ := Spec.Reordered.right hre hqm'
    have ho := (hsame.occurrences s).2 hs
    exact (List.mem_append.1 hqm).imp (fun hm => ⟨q, hm, ho⟩) fun hm => ⟨q, hm, ho⟩
  · rintro (⟨q, hqm, hs⟩ | ⟨q, hqm, hs⟩)
    · obtain ⟨q', hqm', hsame⟩ := Spec.Reordered.left hre (List.mem_append_left _ hqm)
      exact ⟨q', hqm', (hsame.occurrences s).1 hs⟩
    · obtain ⟨q', hqm', hsame⟩ := Spec.Reordered.left hre (List.mem_append_right _ hqm)
      exact ⟨q', hqm', (hsame.occurrences s).1 hs⟩

/-- All species of the first mechanism are species of the second. -/
def Spec.SpeciesOf (m m' : Mechanism) : Prop :=
  ∀ s, (∃ i, m.tables.index.get? s = some i) → ∃ i, m'.tables.index.get? s = some i

/-- The places of the species in a file with more of them. -/
theorem extended_places (h : extractMechanism text = .ok m) (hq : Reads text m.equations.toNat qs)
    (h' : extractMechanism text' = .ok m') (hsub : SpeciesOf m m') {n n' : ℕ} (hn : n = m.tables.species.length) (hn' : n' = m'.tables.species.length) :
    ∃ τ : Fin n → Fin n', ∀ s (i : Fin n), m.tables.index.get? s = some (i : ℕ) →
      m'.tables.index.get? s = some (τ i : ℕ) := by
  obtain ⟨sp, hsp, -⟩ := index_sum h hq hn
  have hfwd : ∀ i : Fin n, ∃ i' : Fin n', m'.tables.index.get? (sp i) = some (i' : ℕ) := fun i => by
    obtain ⟨i', hi⟩ := hsub (sp i) ⟨_, (hsp i _).2 rfl⟩
    exact ⟨⟨i', hn' ▸ (C01_indices h' i').1 ⟨_, hi⟩⟩, hi⟩
  choose τ hτ using hfwd
  refine ⟨τ, fun s i hi => ?_⟩
  rw [(hsp i s).1 hi]
  exact hτ i

theorem sameByName_part {n n' : ℕ} {τ : Fin n → Fin n'} (h : extractMechanism text = .ok m)
    (hn : n = m.tables.species.length)
    (hτ : ∀ s (i : Fin n), m.tables.index.get? s = some (i : ℕ) → m'.tables.index.get? s = some (τ i : ℕ))
    (y : Fin n → ℝ) (y' : Fin n' → ℝ) : SameByName m m' y y' ↔ y = y' ∘ τ := by
  constructor
  · intro hy
    funext i
    obtain ⟨s, hs⟩ := (C01_indices h i).2 (hn ▸ i.2)
    exact hy s i (τ i) hs (hτ s i hs)
  · rintro rfl s i i' hi hi'
    rw [hτ s i hi] at hi'
    rw [Function.comp_apply, Fin.ext (Option.some.inj hi')]

/-- What both states hold for a name of the mechanism. -/
theorem lookup_part {n n' : ℕ} (h : extractMechanism text = .ok m) (h' : extractMechanism text' = .ok m')
    (hn : n = m.tables.species.length) (hn' : n' = m'.tables.species.length) {y : Fin n → ℝ} {y' : Fin n' → ℝ}
    (hy : SameByName m m' y y') {s : Str} {i i' : ℕ} (hi : m.tables.index.get? s = some i)
    (hi' : m'.tables.index.get? s = some i') : stateOf y i = stateOf y' i' := by
  have hl : i < n := hn ▸ (C01_indices h i).1 ⟨_, hi⟩
  have hl' : i' < n' := hn' ▸ (C01_indices h' i').1 ⟨_, hi'⟩
  unfold stateOf
  rw [dif_pos hl, dif_pos hl', hy s ⟨i, hl⟩ ⟨i', hl'⟩ hi hi']

variable {A A' : Str → ℕ → ℝ} {rates rates' : Rates} {start h2o temp : ℝ} {n n' : ℕ}
  {F : ℝ → (Fin n → ℝ) → Fin n → ℝ} {F' : ℝ → (Fin n' → ℝ) → Fin n' → ℝ}

/-- The sum over the peroxy radicals is the same. -/
theorem radicals_value (hsub : SpeciesOf m m')
    (hrad : ∀ s ∈ ro2Names, (∃ i, m'.tables.index.get? s = some i) → ∃ i, m.tables.index.get? s = some i)
    {z z' : ℕ → ℝ} (hz : ∀ s i i', m.tables.index.get? s = some i → m'.tables.index.get? s = some i' → z i = z' i') :
    ((ro2Indices m.tables.index).map z).sum = ((ro2Indices m'.tables.index).map z').sum := by
  rw [ro2Indices_eq, ro2Indices_eq, List.map_filterMap, List.map_filterMap]
  refine congrArg List.sum (List.filterMap_congr fun s hs => ?_)
  cases hi : m.tables.index.get? s with
  | some i =>
    obtain ⟨i', hi'⟩ := hsub s ⟨i, hi⟩
    rw [hi', Option.map_some, Option.map_some, hz s i i' hi hi']
  | none =>
    cases hi' : m'.tables.index.get? s with
    | none => rfl
    | some i' =>
      obtain ⟨i, hi2⟩ := hrad s hs ⟨i', hi'⟩
      rw [hi] at hi2
      cases hi2

theorem radicals_part (h : extractMechanism text = .ok m) (h' : extractMechanism text' = .ok m')
    (hsub : SpeciesOf m m')
    (hrad : ∀ s ∈ ro2Names, (∃ i, m'.tables.index.get? s = some i) → ∃ i, m.tables.index.get? s = some i)
    (hn : n = m.tables.species.length) (hn' : n' = m'.tables.species.length)
    {y : Fin n → ℝ} {y' : Fin n' → ℝ} (hy : SameByName m m' y y') :
    ((ro2Indices m.tables.index).map (stateOf y)).sum = ((ro2Indices m'.tables.index).map (stateOf y')).sum :=
  radicals_value hsub hrad fun _ _ _ hi hi' => lookup_part h h' hn hn' hy hi hi'

theorem Spec.Extends.species (h : extractMechanism text = .ok m) (hq : Reads text m.equations.toNat qs)
    (h' : extractMechanism text' = .ok m') (hq' : Reads text' m'.equations.toNat qs') (hre : Extends qs extra qs') :
    SpeciesOf m m' := fun s hs => (C103_species h hq h' hq' hre s).2 (.inl hs)

/-- What a reaction adds to a species: the coefficient times the product of the reactants times the rate
coefficient. -/
noncomputable def contribution (m : Mechanism) (a : RawEqn → Str → ℝ) (K : Str → ℝ → ℝ → ℝ) (start t : ℝ) (y : ℕ → ℝ)
    (s : Str) (q : RawEqn) : ℝ :=
  a q s * (codeProduct q (concOf m.tables y) * K q.rate (start + t) ((ro2Indices m.tables.index).map y).sum)

theorem kinetic_contributions {a : RawEqn → Str → ℝ} (hA : ∀ s (e : ℕ) q, qs[e]? = some q → A s e = a q s)
    {K : Str → ℝ → ℝ → ℝ} (hK : RatesByText qs rates h2o temp K) (t : ℝ) (y : ℕ → ℝ) {s : Str} (hs : s ∉ heldConstant) :
    kineticValue m qs A rates start h2o temp s t y = (qs.map (contribution m a K start t y s)).sum := by
  unfold kineticValue
  rw [if_neg hs, sum_range_getElem (g := contribution m a K start t y s)]
  intro e q he
  rw [hA s e q he, hK e q he]
  unfold reactionProduct contribution
  rw [he]

/-- In the extended mechanism the added reactions add their contributions, and nothing else changes. -/
theorem kineticValue_extended (h : extractMechanism text = .ok m) (hq : Reads text m.equations.toNat qs)
    (h' : extractMechanism text' = .ok m') (hq' : Reads text' m'.equations.toNat qs') (hre : Extends qs extra qs')
    (hrad : SameRadicals qs extra)
    {a : RawEqn → Str → ℝ} (hA : ∀ s (e : ℕ) q, qs[e]? = some q → A s e = a q s)
    (hA' : ∀ s (e : ℕ) q, qs'[e]? = some q → A' s e = a q s)
    (ha : ∀ q q', SameReaction q q' → a q = a q') {K : Str → ℝ → ℝ → ℝ} (hK : RatesByText qs rates h2o temp K)
    (hK' : RatesByText qs' rates' h2o temp K) (t : ℝ) {z z' : ℕ → ℝ}
    (hz : ∀ s i i', m.tables.index.get? s = some i → m'.tables.index.get? s = some i' → z i = z' i')
    {s : Str} (hs : s ∉ heldConstant) :
    kineticValue m' qs' A' rates' start h2o temp s t z' =
      kineticValue m qs A rates start h2o temp s t z + (extra.map (contribution m' a K start t z' s)).sum := by
  have hr := radicals_value (hre.species h hq h' hq') (fun s hs he =>
    ((C103_species h hq h' hq' hre s).1 he).elim id fun hex => by
      rw [(extract_tables h hq).1, indexed_iff]
      exact hrad s hs hex) hz
  rw [kinetic_contributions hA hK t _ hs, kinetic_contributions hA' hK' t _ hs,
    ← Spec.Reordered.sum hre (g := contribution m' a K start t z' s)
      (g' := contribution m' a K start t z' s), List.map_append, List.sum_append]
  · refine congrArg (fun l : List ℝ => l.sum + _) (List.map_congr_left fun q hqm => ?_)
    unfold contribution
    rw [hr, (Spec.SameReaction.refl q).product (c' := concOf m.tables z)]
    intro x hx
    obtain ⟨j, hj⟩ := (indexed_iff qs x).2 ⟨q, hqm, mem_occurrences.2 (.inl hx)⟩
    rw [← (extract_tables h hq).1] at hj
    obtain ⟨j', hj'⟩ := (C103_species h hq h' hq' hre x).2 (.inl ⟨j, hj⟩)
    rw [← concOf_holds _ _ _ _ hj, ← concOf_holds _ _ _ _ hj', hz x j j' hj hj']
  · intro q _ q' hsame
    unfold contribution
    rw [ha q q' hsame, hsame.rate, hsame.product (c' := concOf m'.tables z') fun _ _ => rfl]

/-- With tracers only the tendencies of the species of the mechanism are the same. -/
theorem kineticValue_tracers (h : extractMechanism text = .ok m) (hq : Reads text m.equations.toNat qs)
    (h' : extractMechanism text' = .ok m') (hq' : Reads text' m'.equations.toNat qs') (hre : Extends qs extra qs')
    (hrad : SameRadicals qs extra)
    {a : RawEqn → Str → ℝ} (hA : ∀ s (e : ℕ) q, qs[e]? = some q → A s e = a q s)
    (hA' : ∀ s (e : ℕ) q, qs'[e]? = some q → A' s e = a q s)
    (ha : ∀ q q', SameReaction q q' → a q = a q')
    (h0 : ∀ q ∈ extra, ∀ s, (∃ p ∈ qs, s ∈ occurrences p) → s ∉ heldConstant → a q s = 0)
    {K : Str → ℝ → ℝ → ℝ} (hK : RatesByText qs rates h2o temp K)
    (hK' : RatesByText qs' rates' h2o temp K) (t : ℝ) {z z' : ℕ → ℝ}
    (hz : ∀ s i i', m.tables.index.get? s = some i → m'.tables.index.get? s = some i' → z i = z' i')
    {s : Str} {i : ℕ} (hi : m.tables.index.get? s = some i) :
    kineticValue m qs A rates start h2o temp s t z = kineticValue m' qs' A' rates' start h2o temp s t z' := by
  by_cases hs : s ∈ heldConstant
  · unfold kineticValue
    rw [if_pos hs, if_pos hs]
  · rw [kineticValue_extended h hq h' hq' hre hrad hA hA' ha hK hK' t hz hs]
    have hin : ∃ p ∈ qs, s ∈ occurrences p := by
      rw [← indexed_iff, ← (extract_tables h hq).1]
      exact ⟨_, hi⟩
    rw [List.sum_eq_zero fun x hx => ?_, add_zero]
    obtain ⟨q, hqm, rfl⟩ := List.mem_map.1 hx
    unfold contribution
    rw [h0 q hqm s hin hs, zero_mul]

theorem kinetic_extended (h : extractMechanism text = .ok m) (hq : Reads text m.equations.toNat qs)
    (h' : extractMechanism text' = .ok m') (hq' : Reads text' m'.equations.toNat qs') (hre : Extends qs extra qs')
    (hrad : SameRadicals qs extra)
    (hF : KineticSystem m qs A rates start h2o temp F) (hF' : KineticSystem m' qs' A' rates' start h2o temp F')
    {a : RawEqn → Str → ℝ} (hA : ∀ s (e : ℕ) q, qs[e]? = some q → A s e = a q s)
    (hA' : ∀ s (e : ℕ) q, qs'[e]? = some q → A' s e = a q s)
    (ha : ∀ q q', SameReaction q q' → a q = a q') {K : Str → ℝ → ℝ → ℝ} (hK : RatesByText qs rates h2o temp K)
    (hK' : RatesByText qs' rates' h2o temp K) (t : ℝ) {y : Fin n → ℝ} {y' : Fin n' → ℝ} (hy : SameByName m m' y y')
    {s : Str} (hs : s ∉ heldConstant) {i : Fin n} {i' : Fin n'} (hi : m.tables.index.get? s = some (i : ℕ))
    (hi' : m'.tables.index.get? s = some (i' : ℕ)) :
    F' t y' i' = F t y i + (extra.map (contribution m' a K start t (stateOf y') s)).sum := by
  rw [hF.value s i hi, hF'.value s i' hi']
  exact kineticValue_extended h hq h' hq' hre hrad hA hA' ha hK hK' t
    (fun _ _ _ hj hj' => lookup_part h h' hF.size hF'.size hy hj hj') hs

theorem kinetic_tracers (h : extractMechanism text = .ok m) (hq : Reads text m.equations.toNat qs)
    (h' : extractMechanism text' = .ok m') (hq' : Reads text' m'.equations.toNat qs') (hre : Extends qs extra qs')
    (hrad : SameRadicals qs extra)
    (hF : KineticSystem m qs A rates start h2o temp F) (hF' : KineticSystem m' qs' A' rates' start h2o temp F')
    {a : RawEqn → Str → ℝ} (hA : ∀ s (e : ℕ) q, qs[e]? = some q → A s e = a q s)
    (hA' : ∀ s (e : ℕ) q, qs'[e]? = some q → A' s e = a q s)
    (ha : ∀ q q', SameReaction q q' → a q = a q')
    (h0 : ∀ q ∈ extra, ∀ s, (∃ p ∈ qs, s ∈ occurrences p) → s ∉ heldConstant → a q s = 0)
    {K : Str → ℝ → ℝ → ℝ} (hK : RatesByText qs rates h2o temp K)
    (hK' : RatesByText qs' rates' h2o temp K) (t : ℝ) {y : Fin n → ℝ} {y' : Fin n' → ℝ} (hy : SameByName m m' y y') :
    SameByName m m' (F t y) (F' t y') := by
  intro s i i' hi hi'
  rw [hF.value s i hi, hF'.value s i' hi']
  exact kineticValue_tracers h hq h' hq' hre hrad hA hA' ha h0 hK hK' t
    (fun _ _ _ hj hj' => lookup_part h h' hF.size hF'.size hy hj hj') hi

/-- **C103**: in states that hold the same for the species of the mechanism, the extended mechanism gives these species
the tendency of the mechanism plus what the added reactions make of them. -/
theorem C103_added (h : extractMechanism text = .ok m) (hq : Reads text m.equations.toNat qs)
    (h' : extractMechanism text' = .ok m') (hq' : Reads text' m'.equations.toNat qs') (hre : Extends qs extra qs')
    (hrad : SameRadicals qs extra) (hF : GasSystem m rates start h2o temp F) (hF' : GasSystem m' rates' start h2o temp F')
    {K : Str → ℝ → ℝ → ℝ} (hK : RatesByText qs rates h2o temp K)
    (hK' : RatesByText qs' rates' h2o temp K) (t : ℝ) {y : Fin n → ℝ} {y' : Fin n' → ℝ} (hy : SameByName m m' y y')
    {s : Str} (hs : s ∉ heldConstant) {i : Fin n} {i' : Fin n'} (hi : m.tables.index.get? s = some (i : ℕ))
    (hi' : m'.tables.index.get? s = some (i' : ℕ)) :
    F' t y' i' = F t y i + (extra.map fun q => (((gainCoef (asRecorded q) s).getD 0 : ℝ) - (coef (chemReactants q) s : ℝ)) *
      (codeProduct q (concOf m'.tables (stateOf y')) *
        K q.rate (start + t) ((ro2Indices m'.tables.index).map (stateOf y')).sum)).sum :=
  kinetic_extended h hq h' hq' hre hrad (hF.kinetic h hq) (hF'.kinetic h' hq') (net_of h hq) (net_of h' hq') netOf_same hK
    hK' t hy hs hi hi'

/-- **C103**: tracers do not change the tendencies of the other species. -/
theorem C103_tendencies (h : extractMechanism text = .ok m) (hq : Reads text m.equations.toNat qs)
    (h' : extractMechanism text' = .ok m') (hq' : Reads text' m'.equations.toNat qs') (hre : Extends qs extra qs')
    (hrad : SameRadicals qs extra) (htr : Tracers qs extra)
    (hF : GasSystem m rates start h2o temp F) (hF' : GasSystem m' rates' start h2o temp F')
    {K : Str → ℝ → ℝ → ℝ} (hK : RatesByText qs rates h2o temp K)
    (hK' : RatesByText qs' rates' h2o temp K) (t : ℝ) {y : Fin n → ℝ} {y' : Fin n' → ℝ}
    (hy : SameByName m m' y y') : SameByName m m' (F t y) (F' t y') :=
  kinetic_tracers h hq h' hq' hre hrad (hF.kinetic h hq) (hF'.kinetic h' hq') (net_of h hq) (net_of h' hq') netOf_same
    (fun q hqm s hs hc => (htr q hqm s hs hc).net) hK hK' t hy

/-- C103, the same for the Fortran version, for any numbers of cores. -/
theorem C103_tendencies_fortran (h : extractMechanism text = .ok m) (hq : Reads text m.equations.toNat qs)
    (h' : extractMechanism text' = .ok m') (hq' : Reads text' m'.equations.toNat qs') (hre : Extends qs extra qs')
    (hrad : SameRadicals qs extra) (htr : Tracers qs extra) {cores cores' : Option ℕ}
    (hF : GasSystemF m cores rates start h2o temp F) (hF' : GasSystemF m' cores' rates' start h2o temp F')
    {K : Str → ℝ → ℝ → ℝ} (hK : RatesByText qs rates h2o temp K)
    (hK' : RatesByText qs' rates' h2o temp K) (t : ℝ) {y : Fin n → ℝ} {y' : Fin n' → ℝ}
    (hy : SameByName m m' y y') : SameByName m m' (F t y) (F' t y') :=
  kinetic_tracers h hq h' hq' hre hrad (hF.kinetic h hq) (hF'.kinetic h' hq') (netF_of h hq) (netF_of h' hq') netOfF_same
    (fun q hqm s hs hc => (htr q hqm s hs hc).netF) hK hK' t hy

end

/-! ## Runs -/

section

variable {ι κ : Type} [Fintype ι] [Fintype κ]

theorem SolvesOn.part {F : ℝ → (ι → ℝ) → ι → ℝ} {F' : ℝ → (κ → ℝ) → κ → ℝ} (τ : ι → κ)
    (hc : ∀ t z, F t (z ∘ τ) = F' t z ∘ τ) {u : ℝ → κ → ℝ} {a b : ℝ} (hu : SolvesOn F' u a b) :
    SolvesOn F (fun t => u t ∘ τ) a b := by
  obtain ⟨h1, S, hS, h2⟩ := hu
  refine ⟨continuousOn_pi.2 fun i => (continuousOn_pi.1 h1) _, S, hS, fun t ht htS => ?_⟩
  rw [hc]
  exact hasDerivWithinAt_pi.2 fun i => hasDerivWithinAt_pi.1 (h2 t ht htS) (τ i)

/-- A system that is a part of another: exact solvers report the same for the components of the part. -/
theorem Tame.rows_part {F : ℝ → (ι → ℝ) → ι → ℝ} {F' : ℝ → (κ → ℝ) → κ → ℝ} (hF : Tame F) (hB : BoxPieces F)
    (τ : ι → κ) (hc : ∀ t z, F t (z ∘ τ) = F' t z ∘ τ) {solve : (ι → ℝ) → ℚ → ι → ℝ}
    {solve' : (κ → ℝ) → ℚ → κ → ℝ} {sim batch : ℚ} (hs : 0 < sim) (hb : 0 < batch) {zero : ι → ℝ}
    {zero' y0' : κ → ℝ} (hy0 : ∀ i, 0 ≤ y0' (τ i)) {times times' : List ℚ} {rows : List (ι → ℝ)} {rows' : List (κ → ℝ)}
    (hrun : runSimulation id solve zero (y0' ∘ τ) sim batch = .ok (times, rows))
    (hrun' : runSimulation id solve' zero' y0' sim batch = .ok (times', rows'))
    (hex : ExactBatches F solve batch (y0' ∘ τ) rows.length)
    (hex' : ExactBatches F' solve' batch y0' rows'.length) :
    times = times' ∧ rows = rows'.map (· ∘ τ) := by
  obtain ⟨k, rfl, rfl, hk⟩ := C32_output_times hs hb hrun
  obtain ⟨k', rfl, rfl, hk'⟩ := C32_output_times hs hb hrun'
  have hkk : k = k' := by
    have := hk.symm.trans hk'
    exact_mod_cast mul_right_cancel₀ hb.ne' this
  subst hkk
  rw [List.length_map, List.length_range] at hex hex'
  have hb' : (0 : ℝ) ≤ batch := by exact_mod_cast hb.le
  have hlip : ∀ R, 0 ≤ R → ∃ K, ∀ t ∈ Icc (0 : ℝ) batch, LipschitzOnWith K (F t) (box R) := by
    intro R hR
    obtain ⟨K, M, hKM⟩ := SetLip.components (A := Icc (0 : ℝ) batch) (B := box R) (hB.lip batch R hR)
    exact ⟨K, fun t ht => (hKM t ht).1⟩
  have key : ∀ j ≤ k, (∀ i, 0 ≤ afterBatches solve batch (y0' ∘ τ) j i) ∧
      afterBatches solve batch (y0' ∘ τ) j = afterBatches solve' batch y0' j ∘ τ := by
    intro j
    induction j with
    | zero => exact fun _ => ⟨hy0, rfl⟩
    | succ j ih =>
      intro hj
      obtain ⟨i1, i2⟩ := ih (by omega)
      obtain ⟨u, u0, hu, u1⟩ := hex j hj
      obtain ⟨v, v0, hv, v1⟩ := hex' j hj
      have hw := SolvesOn.part τ hc hv
      have huv : u 0 = (fun t => v t ∘ τ) 0 := by
        dsimp only
        rw [u0, i2, v0]
      have hun := hF.nonneg hu (by rw [u0]; exact i1)
      have hend := PyBox.SolvesOn.unique_nonneg hu hw hun (hF.nonneg hw (by rw [show v 0 ∘ τ = u 0 from huv.symm, u0]; exact i1)) hlip huv
        ⟨hb', le_rfl⟩
      rw [← u1, ← v1]
      exact ⟨hun _ ⟨hb', le_rfl⟩, hend⟩
  refine ⟨rfl, ?_⟩
  rw [List.map_map]
  exact List.map_congr_left fun j hj => (key (j + 1) (List.mem_range.1 hj)).2

end

section

variable {text text' : Str} {m m' : Mechanism} {qs extra qs' : List RawEqn} {A A' : Str → ℕ → ℝ} {rates rates' : Rates}
  {start h2o temp : ℝ} {n n' : ℕ} {F : ℝ → (Fin n → ℝ) → Fin n → ℝ} {F' : ℝ → (Fin n' → ℝ) → Fin n' → ℝ}
  {solve : (Fin n → ℝ) → ℚ → Fin n → ℝ} {solve' : (Fin n' → ℝ) → ℚ → Fin n' → ℝ} {sim batch : ℚ}
  {zero y0 : Fin n → ℝ} {zero' y0' : Fin n' → ℝ} {times times' : List ℚ} {rows : List (Fin n → ℝ)}
  {rows' : List (Fin n' → ℝ)}

theorem kinetic_part_rows (h : extractMechanism text = .ok m) (hq : Reads text m.equations.toNat qs)
    (h' : extractMechanism text' = .ok m') (hsub : SpeciesOf m m')
    (hF : KineticSystem m qs A rates start h2o temp F) (hn' : n' = m'.tables.species.length)
    (hL : LossOnly qs A) (hpos : ∀ q ∈ qs, ∀ p ∈ chemReactants q ++ chemProducts q, 0 < p.1)
    (hone : WholeReactants qs) (hr : PiecewiseRates rates start h2o temp)
    (hsys : ∀ t (y : Fin n → ℝ) (y' : Fin n' → ℝ), SameByName m m' y y' → SameByName m m' (F t y) (F' t y'))
    (hs : 0 < sim) (hb : 0 < batch) (hy0 : ∀ i, 0 ≤ y0 i) (hyy : SameByName m m' y0 y0')
    (hrun : runSimulation id solve zero y0 sim batch = .ok (times, rows))
    (hrun' : runSimulation id solve' zero' y0' sim batch = .ok (times', rows'))
    (hex : ExactBatches F solve batch y0 rows.length) (hex' : ExactBatches F' solve' batch y0' rows'.length) :
    times = times' ∧ List.Forall₂ (SameByName m m') rows rows' := by
  obtain ⟨τ, hτ⟩ := extended_places h hq h' hsub hF.size hn'
  have hiff := sameByName_part h hF.size hτ
  obtain rfl := (hiff y0 y0').1 hyy
  obtain ⟨h1, rfl⟩ := (hF.tame h hL (left_pos hpos) hone hr.regular).rows_part (hF.boxPieces h hone hr) τ
    (fun t z => (hiff _ _).1 (hsys t _ z ((hiff _ _).2 rfl))) hs hb hy0 hrun hrun' hex hex'
  refine ⟨h1, ?_⟩
  rw [List.forall₂_map_left_iff]
  exact List.forall₂_same.2 fun y _ => (hiff _ _).2 rfl

/-- **C103**: two simulations with exact solvers, of a mechanism and of the mechanism with tracers, started with the same
concentrations of the species of the mechanism, report the same times and the same concentrations of these. -/
theorem C103_rows (h : extractMechanism text = .ok m) (hq : Reads text m.equations.toNat qs)
    (h' : extractMechanism text' = .ok m') (hq' : Reads text' m'.equations.toNat qs') (hre : Extends qs extra qs')
    (hrad : SameRadicals qs extra) (htr : Tracers qs extra)
    (hpos : ∀ q ∈ qs, ∀ p ∈ chemReactants q ++ chemProducts q, 0 < p.1) (hone : WholeReactants qs)
    (hr : PiecewiseRates rates start h2o temp)
    (hF : GasSystem m rates start h2o temp F) (hF' : GasSystem m' rates' start h2o temp F')
    {K : Str → ℝ → ℝ → ℝ} (hK : RatesByText qs rates h2o temp K) (hK' : RatesByText qs' rates' h2o temp K)
    (hs : 0 < sim) (hb : 0 < batch) (hy0 : ∀ i, 0 ≤ y0 i) (hyy : SameByName m m' y0 y0')
    (hrun : runSimulation id solve zero y0 sim batch = .ok (times, rows))
    (hrun' : runSimulation id solve' zero' y0' sim batch = .ok (times', rows'))
    (hex : ExactBatches F solve batch y0 rows.length) (hex' : ExactBatches F' solve' batch y0' rows'.length) :
    times = times' ∧ List.Forall₂ (SameByName m m') rows rows' :=
  kinetic_part_rows h hq h' (hre.species h hq h' hq') (hF.kinetic h hq) (hF'.kinetic h' hq').size (recorded_loss_only h hq hpos).1 hpos hone hr
    (fun t _ _ hy => C103_tendencies h hq h' hq' hre hrad htr hF hF' hK hK' t hy) hs hb hy0 hyy hrun hrun' hex hex'

/-- C103, the same for the Fortran version, for any numbers of cores. -/
theorem C103_rows_fortran (h : extractMechanism text = .ok m) (hq : Reads text m.equations.toNat qs)
    (h' : extractMechanism text' = .ok m') (hq' : Reads text' m'.equations.toNat qs') (hre : Extends qs extra qs')
    (hrad : SameRadicals qs extra) (htr : Tracers qs extra)
    (hpos : ∀ q ∈ qs, ∀ p ∈ chemReactants q ++ chemProducts q, 0 < p.1) (hone : WholeReactants qs)
    (hr : PiecewiseRates rates start h2o temp) {cores cores' : Option ℕ}
    (hF : GasSystemF m cores rates start h2o temp F) (hF' : GasSystemF m' cores' rates' start h2o temp F')
    {K : Str → ℝ → ℝ → ℝ} (hK : RatesByText qs rates h2o temp K) (hK' : RatesByText qs' rates' h2o temp K)
    (hs : 0 < sim) (hb : 0 < batch) (hy0 : ∀ i, 0 ≤ y0 i) (hyy : SameByName m m' y0 y0')
    (hrun : runSimulation id solve zero y0 sim batch = .ok (times, rows))
    (hrun' : runSimulation id solve' zero' y0' sim batch = .ok (times', rows'))
    (hex : ExactBatches F solve batch y0 rows.length) (hex' : ExactBatches F' solve' batch y0' rows'.length) :
    times = times' ∧ List.Forall₂ (SameByName m m') rows rows' :=
  kinetic_part_rows h hq h' (hre.species h hq h' hq') (hF.kinetic h hq) (hF'.kinetic h' hq').size (recorded_loss_only h hq hpos).2 hpos hone hr
    (fun t _ _ hy => C103_tendencies_fortran h hq h' hq' hre hrad htr hF hF' hK hK' t hy) hs hb hy0 hyy hrun hrun' hex hex'

/-! ## From the texts of the generated files -/

variable {conv : ℕ} {num num' : ℚ → Str} {f f' : GasFiles} {junk junk' : Vals}

theorem readable_part {b : Backend} {convert : Str → Str} (hre : Extends qs extra qs')
    (h : ReadableRates b convert qs') : ReadableRates b convert qs := fun q hqm => by
  obtain ⟨q', hqm', hsame⟩ := Spec.Reordered.left hre (List.mem_append_left _ hqm)
  rw [hsame.rate]
  exact h q' hqm'

/-- **C103**, Python version: the same for the systems given by the texts of the generated files. -/
theorem C103_files_python (h : extractMechanism text = .ok m) (hq : Reads text m.equations.toNat qs)
    (h' : extractMechanism text' = .ok m') (hq' : Reads text' m'.equations.toNat qs') (hre : Extends qs extra qs')
    (hrad : SameRadicals qs extra) (htr : Tracers qs extra)
    (hpos : ∀ q ∈ qs, ∀ p ∈ chemReactants q ++ chemProducts q, 0 < p.1) (hone : WholeReactants qs)
    (hw : Prints num id m.tables) (hw' : Prints num' id m'.tables)
    (hf : f.WrittenPython m conv num) (hf' : f'.WrittenPython m' conv num')
    (hread' : ReadableRates .numba ((convertOf .numba)^[conv]) qs')
    (hnn : NonnegRates .numba ((convertOf .numba)^[conv]) qs h2o temp)
    (hF : PythonSystem f m junk start h2o temp F) (hF' : PythonSystem f' m' junk' start h2o temp F')
    (hs : 0 < sim) (hb : 0 < batch) (hy0 : ∀ i, 0 ≤ y0 i) (hyy : SameByName m m' y0 y0')
    (hrun : runSimulation id solve zero y0 sim batch = .ok (times, rows))
    (hrun' : runSimulation id solve' zero' y0' sim batch = .ok (times', rows'))
    (hex : ExactBatches F solve batch y0 rows.length) (hex' : ExactBatches F' solve' batch y0' rows'.length) :
    times = times' ∧ List.Forall₂ (SameByName m m') rows rows' := by
  have hread := readable_part hre hread'
  obtain ⟨p, hp, -⟩ := C66_value h hq (b := .numba) (by decide) none hread
  obtain ⟨p', hp', -⟩ := C66_value h' hq' (b := .numba) (by decide) none hread'
  have hG := ((C73_system_python h hw hf (hf.rates ▸ hp)).1 hF).congr h hq
    (rates' := generatedRates .numba p fun _ => 0) fun t r e he => by
      rw [generated_textRate h hq (by decide) hread hp junk temp _ _ h2o he,
        generated_textRate h hq (by decide) hread hp (fun _ => 0) temp _ _ h2o he]
  exact C103_rows h hq h' hq' hre hrad htr hpos hone
    (C66_piecewise h hq (by decide) hread hp (fun _ => le_refl _) start hnn) hG
    ((C73_system_python h' hw' hf' (hf'.rates ▸ hp')).1 hF') (generated_by_text h hq (by decide) hread hp _ h2o temp)
    (generated_by_text h' hq' (by decide) hread' hp' _ h2o temp) hs hb hy0 hyy hrun hrun' hex hex'

/-- **C103**, Fortran version: the same for the systems given by the texts of the generated files, which may be for
different numbers of cores. -/
theorem C103_files_fortran (h : extractMechanism text = .ok m) (hq : Reads text m.equations.toNat qs)
    (h' : extractMechanism text' = .ok m') (hq' : Reads text' m'.equations.toNat qs') (hre : Extends qs extra qs')
    (hrad : SameRadicals qs extra) (htr : Tracers qs extra)
    (hpos : ∀ q ∈ qs, ∀ p ∈ chemReactants q ++ chemProducts q, 0 < p.1) (hone : WholeReactants qs)
    (hw : Prints num id m.tables) (hw' : Prints num' id m'.tables) {cores cores' : Option ℕ}
    (hf : f.WrittenFortran m cores conv num) (hf' : f'.WrittenFortran m' cores' conv num')
    (hread' : ReadableRates .fortran ((convertOf .fortran)^[conv]) qs')
    (hnn : NonnegRates .fortran ((convertOf .fortran)^[conv]) qs h2o temp)
    (hF : FortranSystem f m junk start h2o temp F) (hF' : FortranSystem f' m' junk' start h2o temp F')
    (hs : 0 < sim) (hb : 0 < batch) (hy0 : ∀ i, 0 ≤ y0 i) (hyy : SameByName m m' y0 y0')
    (hrun : runSimulation id solve zero y0 sim batch = .ok (times, rows))
    (hrun' : runSimulation id solve' zero' y0' sim batch = .ok (times', rows'))
    (hex : ExactBatches F solve batch y0 rows.length) (hex' : ExactBatches F' solve' batch y0' rows'.length) :
    times = times' ∧ List.Forall₂ (SameByName m m') rows rows' := by
  have hread := readable_part hre hread'
  obtain ⟨p, hp, -⟩ := C66_value h hq (b := .fortran) (by decide) cores hread
  obtain ⟨p', hp', -⟩ := C66_value h' hq' (b := .fortran) (by decide) cores' hread'
  have hG := (C73_system_fortran h hw hf (hf.rates ▸ hp)).1 hF
  have hG' := (C73_system_fortran h' hw' hf' (hf'.rates ▸ hp')).1 hF'
  have hk := (hG.kinetic h hq).congr_rates (rates' := generatedRates .fortran p fun _ => 0) fun t r e he => by
      rw [generated_textRate h hq (by decide) hread hp junk temp _ _ h2o he,
        generated_textRate h hq (by decide) hread hp (fun _ => 0) temp _ _ h2o he]
  exact kinetic_part_rows h hq h' (hre.species h hq h' hq') hk (hG'.kinetic h' hq').size (recorded_loss_only h hq hpos).2 hpos hone
    (C66_piecewise h hq (by decide) hread hp (fun _ => le_refl _) start hnn)
    (fun t _ _ hy => C103_tendencies_fortran h hq h' hq' hre hrad htr hG hG'
      (generated_by_text h hq (by decide) hread hp _ h2o temp)
      (generated_by_text h' hq' (by decide) hread' hp' _ h2o temp) t hy) hs hb hy0 hyy hrun hrun' hex hex'

end

/-! ## A case the theorems apply to -/

/-- `radicalText` after a reaction of a tracer with nitrogen oxide. -/
def tracerText : Str :=
  "{1.}NO+TRA=NO+TRB:1.00D-13;{2.}CH3O2+NO=HCHO+NO2:2.30D-12*EXP(360/TEMP);{3.}NO2=NO+O:J(4);".toList

def tracerReaction : RawEqn :=
  { reactants := [(1, "NO".toList), (1, "TRA".toList)], products := [(1, "NO".toList), (1, "TRB".toList)],
    rate := "1.00D-13".toList }

def tracerReactions : List RawEqn := tracerReaction :: radicalReactions

theorem tracer_parses : extractMechanism tracerText = .ok { tables := build tracerReactions, equations := 3 } := by
  rw [extract_ok_iff]
  refine ⟨"3.".toList, 3, tracerReactions, ?_, by decide +kernel, ?_, rfl⟩
  · rw [labels_eq _ (not_mem_removeChar _ _)]; decide +kernel
  · rw [bodies_eq _ (not_mem_removeChar _ _)]; decide +kernel

theorem tracer_reads : Reads tracerText 3 tracerReactions := by
  unfold Reads bodyTexts; decide +kernel

theorem extends_cons (q : RawEqn) (qs : List RawEqn) : Extends qs [q] (q :: qs) :=
  ⟨q :: qs, List.perm_append_singleton q qs, List.forall₂_same.2 fun q _ => .refl q⟩

theorem tracer_alone : Tracers radicalReactions [tracerReaction] := by
  have hd : ∀ p ∈ radicalReactions, ∀ s ∈ occurrences p,
      (s ∈ names (chemReactants tracerReaction) ↔ s ∈ names (chemProducts tracerReaction)) ∧
      coef (chemReactants tracerReaction) s = coef (chemProducts tracerReaction) s := by decide +kernel
  have hg : GainGood tracerReaction := by decide +kernel
  intro q hq s ⟨p, hp, hs⟩ _
  obtain rfl := List.mem_singleton.1 hq
  exact .of_good hg (hd p hp s hs).1 (hd p hp s hs).2

theorem tracer_radicals : SameRadicals radicalReactions [tracerReaction] := by
  have hd : ∀ s ∈ occurrences tracerReaction, s ∉ ro2Names := by decide +kernel
  intro s hs ⟨q, hq, ho⟩
  obtain rfl := List.mem_singleton.1 hq
  exact absurd hs (hd s ho)

/-- The components of the two states are in different places. -/
theorem tracer_places :
    ((build radicalReactions).index.get? "CH3O2".toList = some 0 ∧ (build radicalReactions).index.get? "NO".toList = some 1) ∧
    (build tracerReactions).index.get? "CH3O2".toList = some 3 ∧ (build tracerReactions).index.get? "NO".toList = some 0 := by
  decide +kernel

/-- The files of the Python version for `tracerText`. -/
def tracerPython : GasFiles where
  rates := ratesFile .numba none ((convertTable (convertOf .numba))^[1] (build tracerReactions).rate)
  reactants := match writeReactantsPy (build tracerReactions).gen 3 with
    | .ok P => fileText reactantsPyLayout shortNum [] 7 3 P
    | .error _ => []
  lossGain := fileText lossGainPyLayout shortNum [] 7 3 (writeLossGainPy (build tracerReactions).gen)

theorem tracer_prints : Prints shortNum id (build tracerReactions) :=
  shortNum_prints (by decide +kernel) (by decide +kernel)

theorem tracer_seven : (build tracerReactions).species.length = 7 := by decide +kernel

theorem tracerPython_written : tracerPython.WrittenPython ⟨build tracerReactions, 3⟩ 1 shortNum where
  rates := rfl
  reactants := by
    obtain ⟨P, hP, -⟩ := C70_rhs_python tracer_parses tracer_prints 7
    refine ⟨P, [], hP, by simp, ?_⟩
    have hP' : writeReactantsPy (build tracerReactions).gen 3 = .ok P := hP
    show (match writeReactantsPy (build tracerReactions).gen 3 with
      | .ok P => fileText reactantsPyLayout shortNum [] 7 3 P
      | .error _ => []) = fileText reactantsPyLayout shortNum [] (build tracerReactions).species.length 3 P
    rw [hP', tracer_seven]
  lossGain := ⟨[], by simp, by rw [tracer_seven]; rfl⟩

/-- The weights of `radicalWeight`, and one for both forms of the tracer. -/
def tracerWeight (s : Str) : ℚ := if s = "TRA".toList ∨ s = "TRB".toList then 1 else radicalWeight s

theorem tracer_weights : ∀ s i, (build tracerReactions).index.get? s = some i → s ∉ heldConstant →
    ∃ w : Str → ℝ, (∀ s, 0 ≤ w s) ∧ 0 < w s ∧ (∀ s ∈ heldConstant, w s = 0) ∧
      ∀ q ∈ tracerReactions, NotGained w q := by
  have hnn : ∀ s, 0 ≤ tracerWeight s := by
    intro s
    unfold tracerWeight radicalWeight
    split
    · norm_num
    · split
      · norm_num
      · split <;> norm_num
  have hbal : ∀ q ∈ tracerReactions, ((chemReactants q).map (fun p => p.1 * tracerWeight p.2)).sum
      = ((chemProducts q).map (fun p => p.1 * tracerWeight p.2)).sum := by decide +kernel
  have hheld : ∀ s ∈ heldConstant, tracerWeight s = 0 := by decide +kernel
  intro s i hs _
  refine ⟨fun s => (tracerWeight s : ℝ), fun s => Rat.cast_nonneg.2 (hnn s), ?_, fun s hs => by
    dsimp only; rw [hheld s hs, Rat.cast_zero],
    fun q hq => ?_⟩
  · obtain ⟨q, hq, hs'⟩ := (indexed_iff tracerReactions s).1 ⟨i, hs⟩
    have hall : ∀ q ∈ tracerReactions, ∀ s ∈ occurrences q, 0 < tracerWeight s := by decide +kernel
    exact Rat.cast_pos.2 (hall q hq s hs')
  · unfold NotGained
    rw [weight_rat, weight_rat, hbal q hq]

theorem two_batches {ι : Type} (solve : (ι → ℝ) → ℚ → ι → ℝ) (y0 : ι → ℝ) :
    ∃ rows, runSimulation id solve (fun _ => 0) y0 (((2 : ℕ) : ℚ) * 60) 60 = .ok ([60, 120], rows) := by
  have hrun := C32_C33_whole_batches (n := 2) (batch := 60) (by norm_num) (by norm_num)
    (exact_id 60 2) solve (fun _ => 0) y0
  have ht : (List.range 2).map (fun k : ℕ => ((k : ℚ) + 1) * 60) = [60, 120] := by decide +kernel
  rw [ht] at hrun
  exact ⟨_, hrun⟩

/-- All hypotheses are met by the files of `radicalText` and `tracerText`: both have a system, both systems have exact
solvers, and two simulations started with the same concentrations of the five species, and any of the tracer, report the
same concentrations of the five. -/
theorem tracer_run (junk junk' : Vals) {start h2o temp : ℝ} (hT : 0 < temp) (hh : 0 ≤ h2o) :
    ∃ (F : ℝ → (Fin 5 → ℝ) → Fin 5 → ℝ) (F' : ℝ → (Fin 7 → ℝ) → Fin 7 → ℝ) (solve : (Fin 5 → ℝ) → ℚ → Fin 5 → ℝ)
      (solve' : (Fin 7 → ℝ) → ℚ → Fin 7 → ℝ),
      PythonSystem radicalPython ⟨build radicalReactions, 2⟩ junk start h2o temp F ∧
      PythonSystem tracerPython ⟨build tracerReactions, 3⟩ junk' start h2o temp F' ∧
      ∀ (y0 : Fin 5 → ℝ) (y0' : Fin 7 → ℝ), (∀ i, 0 ≤ y0 i) → (∀ i, 0 ≤ y0' i) →
        SameByName ⟨build radicalReactions, 2⟩ ⟨build tracerReactions, 3⟩ y0 y0' →
        (∀ k, ExactBatches F solve 60 y0 k) ∧ (∀ k, ExactBatches F' solve' 60 y0' k) ∧
        ∃ rows rows', runSimulation id solve (fun _ => 0) y0 (((2 : ℕ) : ℚ) * 60) 60 = .ok ([60, 120], rows) ∧
          runSimulation id solve' (fun _ => 0) y0' (((2 : ℕ) : ℚ) * 60) 60 = .ok ([60, 120], rows') ∧
          List.Forall₂ (SameByName ⟨build radicalReactions, 2⟩ ⟨build tracerReactions, 3⟩) rows rows' := by
  obtain ⟨c1, -, -⟩ := radical_rates
  obtain ⟨n1, n2⟩ := rateTextCheck_reads c1
  have c1' : ∀ q ∈ tracerReactions, rateTextCheck .numba ((convertOf .numba)^[1] q.rate) = true := by decide +kernel
  obtain ⟨m1, m2⟩ := rateTextCheck_reads c1'
  obtain ⟨p, hp, -⟩ := C66_value radical_parses radical_reads (b := .numba) (by decide) none n1
  obtain ⟨p', hp', -⟩ := C66_value tracer_parses tracer_reads (b := .numba) (by decide) none m1
  obtain ⟨F, hF0⟩ := radical_system (generatedRates .numba p junk) start h2o temp
  obtain ⟨F', hF0'⟩ := gasSystem_exists tracer_parses
    (allWritten_of_good tracer_parses tracer_reads (by decide +kernel)) ⟨"CH3O2".toList, by decide +kernel⟩
    (generatedRates .numba p' junk') start h2o temp (n := 7) tracer_seven.symm
  have hF := (C73_system_python radical_parses radical_prints radicalPython_written hp).2 hF0
  have hF' := (C73_system_python tracer_parses tracer_prints tracerPython_written hp').2 hF0'
  have hnn := C66_nonneg (b := .numba) (by decide) n1 n2 hT hh
  have hnn' := C66_nonneg (b := .numba) (by decide) m1 m2 hT hh
  have hpos' : (∀ q ∈ tracerReactions, ∀ p ∈ chemReactants q ++ chemProducts q, 0 < p.1) ∧
      (∀ q ∈ tracerReactions, ∀ s ∈ names (chemReactants q), 1 ≤ coef (chemReactants q) s) := by decide +kernel
  obtain ⟨solve, hs⟩ := C73_exists radical_parses radical_reads radical_positive.1 radical_positive.2
    radical_weights radical_prints radicalPython_written n1 hnn hF (batch := 60) (by norm_num)
  obtain ⟨solve', hs'⟩ := C73_exists tracer_parses tracer_reads hpos'.1 hpos'.2
    tracer_weights tracer_prints tracerPython_written m1 hnn' hF' (batch := 60) (by norm_num)
  refine ⟨F, F', solve, solve', hF, hF', fun y0 y0' hy0 hy0' hyy => ⟨hs y0 hy0, hs' y0' hy0', ?_⟩⟩
  obtain ⟨rows, hrun⟩ := two_batches solve y0
  obtain ⟨rows', hrun'⟩ := two_batches solve' y0'
  exact ⟨rows, rows', hrun, hrun', (C103_files_python radical_parses radical_reads tracer_parses tracer_reads
    (extends_cons _ _) tracer_radicals tracer_alone radical_positive.1 radical_positive.2 radical_prints tracer_prints
    radicalPython_written tracerPython_written m1 hnn hF hF' (by norm_num) (by norm_num) hy0 hyy hrun hrun'
    (hs y0 hy0 _) (hs' y0' hy0' _)).2⟩

/-! ## The order in the reaction of the tracer -/

/-- `radicalText` after a reaction of a tracer with both oxides of nitrogen. -/
def eatenText : Str :=
  "{1.}TRA+NO2+NO=TRB+NO+NO2:1.00D-13;{2.}CH3O2+NO=HCHO+NO2:2.30D-12*EXP(360/TEMP);{3.}NO2=NO+O:J(4);".toList

def eatenReaction : RawEqn :=
  { reactants := [(1, "TRA".toList), (1, "NO2".toList), (1, "NO".toList)],
    products := [(1, "TRB".toList), (1, "NO".toList), (1, "NO2".toList)], rate := "1.00D-13".toList }

def eatenReactions : List RawEqn := eatenReaction :: radicalReactions

theorem eaten_parses : extractMechanism eatenText = .ok { tables := build eatenReactions, equations := 3 } := by
  rw [extract_ok_iff]
  refine ⟨"3.".toList, 3, eatenReactions, ?_, by decide +kernel, ?_, rfl⟩
  · rw [labels_eq _ (not_mem_removeChar _ _)]; decide +kernel
  · rw [bodies_eq _ (not_mem_removeChar _ _)]; decide +kernel

theorem eaten_reads : Reads eatenText 3 eatenReactions := by
  unfold Reads bodyTexts; decide +kernel

/-- As written, the reaction gives back what it takes of the species of `radicalText`. -/
theorem eaten_written : ∀ p ∈ radicalReactions, ∀ s ∈ occurrences p,
    coef (chemReactants eatenReaction) s = coef (chemProducts eatenReaction) s := by decide +kernel

theorem eaten_radicals : SameRadicals radicalReactions [eatenReaction] := by
  have hd : ∀ s ∈ occurrences eatenReaction, s ∉ ro2Names := by decide +kernel
  intro s hs ⟨q, hq, ho⟩
  obtain rfl := List.mem_singleton.1 hq
  exact absurd hs (hd s ho)

/-- **C103**: that the reactions are written as those of tracers is not enough. In this mechanism, by the test
at `/repo/Parse_eqn_file.py`, line 282, the nitrogen dioxide given back is not recorded, and the tracer consumes it. -/
theorem C103_consumed {rates rates' : Rates} {start h2o temp : ℝ} {F : ℝ → (Fin 5 → ℝ) → Fin 5 → ℝ}
    {F' : ℝ → (Fin 7 → ℝ) → Fin 7 → ℝ} (hF : GasSystem ⟨build radicalReactions, 2⟩ rates start h2o temp F)
    (hF' : GasSystem ⟨build eatenReactions, 3⟩ rates' start h2o temp F')
    {K : Str → ℝ → ℝ → ℝ} (hK : RatesByText radicalReactions rates h2o temp K)
    (hK' : RatesByText eatenReactions rates' h2o temp K) (t : ℝ) {y : Fin 5 → ℝ} {y' : Fin 7 → ℝ}
    (hy : SameByName ⟨build radicalReactions, 2⟩ ⟨build eatenReactions, 3⟩ y y') :
    F' t y' 1 = F t y 3 - y' 0 * y' 1 * y' 2 *
      K "1.00D-13".toList (start + t) (((ro2Indices (build eatenReactions).index).map (stateOf y')).sum) := by
  have key := C103_added radical_parses radical_reads eaten_parses eaten_reads (extends_cons _ _) eaten_radicals hF hF' hK
    hK' t hy (s := "NO2".toList) (by decide +kernel) (i := 3) (i' := 1) (by decide +kernel) (by decide +kernel)
  have hgain : gainCoef (asRecorded eatenReaction) "NO2".toList = none := by decide +kernel
  have hloss : coef (chemReactants eatenReaction) "NO2".toList = 1 := by decide +kernel
  have hprod : codeProduct eatenReaction (concOf (build eatenReactions) (stateOf y')) = y' 0 * y' 1 * y' 2 := by
    have hn : chemReactants eatenReaction ≠ [] := by decide +kernel
    have hnames : names (chemReactants eatenReaction) = ["TRA".toList, "NO2".toList, "NO".toList] := by decide +kernel
    have hc : coef (chemReactants eatenReaction) "TRA".toList = 1 ∧ coef (chemReactants eatenReaction) "NO".toList = 1 := by
      decide +kernel
    have h0 := concOf_holds (build eatenReactions) (stateOf y') "TRA".toList 0 (by decide +kernel)
    have h1 := concOf_holds (build eatenReactions) (stateOf y') "NO2".toList 1 (by decide +kernel)
    have h2 := concOf_holds (build eatenReactions) (stateOf y') "NO".toList 2 (by decide +kernel)
    unfold codeProduct
    rw [if_neg hn, hnames, List.map_cons, List.map_cons, List.map_singleton, List.prod_cons, List.prod_cons,
      List.prod_singleton, hloss, hc.1, hc.2, Rat.cast_one, Real.rpow_one, Real.rpow_one, Real.rpow_one, ← h0, ← h1, ← h2,
      ← mul_assoc]
    rfl
  rw [key, List.map_singleton, List.sum_singleton, hgain, hloss, hprod]
  simp only [Option.getD_none, Rat.cast_one]
  show _ + _ * (_ * K "1.00D-13".toList _ _) = _
  push_cast
  ring

end PyBox
