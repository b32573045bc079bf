import Verif.Sim.Model
import Verif.Props.Parsing

/-!
# C35: the initial state
-/

namespace PyBox

variable {K : Type}

/-- The assignment loop shared by the drivers, for any conversion `g` of the given value. -/
def assignLoop (index : Dict Str Nat) (g : Str → K → K) (conc : Dict Str K) (l : List K) :
    Except PyErr (List K) :=
  conc.foldlM (fun y p => match index.get? p.1 with
    | none => .error .key
    | some i => pyAssign y i (g p.1 p.2)) l

theorem assignLoop_cons (index : Dict Str Nat) (g : Str → K → K) (p : Str × K) (conc : Dict Str K)
    (l : List K) :
    assignLoop index g (p :: conc) l =
      match index.get? p.1 with
      | none => .error .key
      | some i => if i < l.length then assignLoop index g conc (l.set i (g p.1 p.2)) else .error .index := by
  unfold assignLoop
  rw [List.foldlM_cons]
  cases index.get? p.1 with
  | none => rfl
  | some i =>
    simp only [pyAssign]
    split <;> rfl

theorem assignLoop_ok (index : Dict Str Nat) (g : Str → K → K)
    (hinj : ∀ s s' i, index.get? s = some i → index.get? s' = some i → s = s') :
    ∀ (conc : Dict Str K) (l : List K), conc.keys.Nodup →
      (∀ s ∈ conc.keys, ∃ i, index.get? s = some i ∧ i < l.length) →
      ∃ y, assignLoop index g conc l = .ok y ∧ y.length = l.length ∧
        (∀ p ∈ conc, ∀ i, index.get? p.1 = some i → y[i]? = some (g p.1 p.2)) ∧
        (∀ i, (∀ s ∈ conc.keys, index.get? s ≠ some i) → y[i]? = l[i]?) := by
  intro conc
  induction conc with
  | nil =>
    intro l _ _
    exact ⟨l, rfl, rfl, by simp, fun i _ => rfl⟩
  | cons p conc ih =>
    intro l hnd hk
    have hnd' : p.1 ∉ Dict.keys conc ∧ (Dict.keys conc).Nodup := by
      have : (p.1 :: Dict.keys conc).Nodup := hnd
      exact List.nodup_cons.1 this
    have hkeys : ∀ s, s ∈ Dict.keys (p :: conc) ↔ s = p.1 ∨ s ∈ Dict.keys conc := by
      intro s
      exact List.mem_cons
    obtain ⟨i, hi, hil⟩ := hk p.1 ((hkeys _).2 (Or.inl rfl))
    obtain ⟨y, h1, h2, h3, h4⟩ := ih (l.set i (g p.1 p.2)) hnd'.2 (by
      intro s hs
      obtain ⟨j, hj, hjl⟩ := hk s ((hkeys _).2 (Or.inr hs))
      exact ⟨j, hj, by rwa [List.length_set]⟩)
    refine ⟨y, ?_, by rw [h2, List.length_set], ?_, ?_⟩
    · rw [assignLoop_cons, hi]
      simp only
      rw [if_pos hil, h1]
    · intro q hq j hj
      rcases List.mem_cons.1 hq with rfl | hq
      · obtain rfl : i = j := by rw [hi] at hj; injection hj
        rw [h4 i (fun s hs he => ?_)]
        · rw [List.getElem?_set_self hil]
        · rw [hinj s q.1 i he hi] at hs
          exact hnd'.1 hs
      · exact h3 q hq j hj
    · intro j hj
      rw [h4 j (fun s hs => hj s ((hkeys _).2 (Or.inr hs)))]
      rw [List.getElem?_set_ne]
      intro he
      exact hj p.1 ((hkeys _).2 (Or.inl rfl)) (he ▸ hi)

theorem assignLoop_unknown (index : Dict Str Nat) (g : Str → K → K) :
    ∀ (conc : Dict Str K) (l : List K), (∀ s i, index.get? s = some i → i < l.length) →
      (∃ s ∈ conc.keys, index.get? s = none) → assignLoop index g conc l = .error .key := by
  intro conc
  induction conc with
  | nil => rintro l _ ⟨s, hs, _⟩; cases hs
  | cons p conc ih =>
    rintro l hl ⟨s, hs, hn⟩
    rw [assignLoop_cons]
    cases hi : index.get? p.1 with
    | none => rfl
    | some i =>
      simp only
      rw [if_pos (hl p.1 i hi)]
      refine ih _ (fun s i h => by rw [List.length_set]; exact hl s i h) ⟨s, ?_, hn⟩
      have : s = p.1 ∨ s ∈ Dict.keys conc := List.mem_cons.1 hs
      rcases this with rfl | h
      · rw [hn] at hi; cases hi
      · exact h

/-- **C35** for the gas-phase drivers. When every name is a species of the mechanism, the initial vector has
one entry per species: the given value in ppb times 2.55e10 where one is given, zero elsewhere. -/
theorem C35_gas [CommRing K] {text : Str} {m : Mechanism} (h : extractMechanism text = .ok m) {conc : Dict Str K}
    (hnd : conc.keys.Nodup) (hk : ∀ s ∈ conc.keys, (m.tables.index.get? s).isSome) :
    ∃ y, initialGas m.tables.species.length m.tables.index conc = .ok y ∧
      y.length = m.tables.species.length ∧
      ∀ i s, m.tables.species.get? i = some s →
        y[i]? = some (((conc.get? s).getD 0) * 25500000000) := by
  have hinj : ∀ s s' i, m.tables.index.get? s = some i → m.tables.index.get? s' = some i → s = s' := by
    intro s s' i h1 h2
    rw [C01_inverse h] at h1 h2
    rw [h1] at h2
    injection h2
  obtain ⟨y, h1, h2, h3, h4⟩ := assignLoop_ok m.tables.index (fun _ v => v * cFactor) hinj conc
    (List.replicate m.tables.species.length 0) hnd (by
      intro s hs
      obtain ⟨i, hi⟩ := Option.isSome_iff_exists.1 (hk s hs)
      exact ⟨i, hi, by rw [List.length_replicate]; exact (C01_indices h i).1 ⟨s, hi⟩⟩)
  refine ⟨y, h1, by rw [h2, List.length_replicate], fun i s hi => ?_⟩
  rw [← C01_inverse h] at hi
  cases hc : conc.get? s with
  | some v =>
    rw [h3 (s, v) (Dict.mem_of_get?_eq_some hc) i hi]
    rfl
  | none =>
    rw [h4 i (fun s' hs' he => ?_), List.getElem?_replicate, if_pos ((C01_indices h i).1 ⟨s, hi⟩)]
    · simp
    · rw [hinj s' s i he hi] at hs'
      exact (Dict.get?_eq_none_iff _ _).1 hc hs'

/-- **C35**: an unknown name raises a key error. -/
theorem C35_gas_unknown [CommRing K] {text : Str} {m : Mechanism} (h : extractMechanism text = .ok m)
    {conc : Dict Str K} (hk : ∃ s ∈ conc.keys, m.tables.index.get? s = none) :
    initialGas m.tables.species.length m.tables.index conc = .error .key := by
  refine assignLoop_unknown m.tables.index (fun _ v => v * cFactor) conc _ (fun s i hi => ?_) hk
  rw [List.length_replicate]
  exact (C01_indices h i).1 ⟨s, hi⟩

theorem initialAerosol_eq [CommRing K] (numSpecies numCond numBins : Nat) (index : Dict Str Nat) (conc : Dict Str K)
    (cond : List K) : initialAerosol numSpecies numCond numBins index conc cond =
      (assignLoop index (fun s v => if s = "H2O".toList then v else v * cFactor) conc
        (List.replicate (numSpecies + numCond * numBins) 0)).map
        (fun y => pySlice y numSpecies (numSpecies + numBins * numCond) cond) := by
  change (assignLoop index (fun s v => if s = "H2O".toList then v else v * cFactor) conc
    (List.replicate (numSpecies + numCond * numBins) 0)).bind
    (fun y => .ok (pySlice y numSpecies (numSpecies + numBins * numCond) cond)) = _
  cases assignLoop index (fun s v => if s = "H2O".toList then v else v * cFactor) conc
    (List.replicate (numSpecies + numCond * numBins) 0) <;> rfl

/-- **C35** for the aerosol driver, where the index table is the one extended with water (C43): gas entries
as before, except that water is not converted; then the given condensed vector. -/
theorem C35_aerosol [CommRing K] {numSpecies numCond numBins : Nat} {index : Dict Str Nat} {conc : Dict Str K}
    {cond : List K}
    (hinj : ∀ s s' i, index.get? s = some i → index.get? s' = some i → s = s')
    (hnd : conc.keys.Nodup) (hk : ∀ s ∈ conc.keys, ∃ i, index.get? s = some i ∧ i < numSpecies)
    (hc : cond.length = numBins * numCond) :
    ∃ y, initialAerosol numSpecies numCond numBins index conc cond = .ok y ∧
      y.length = numSpecies + numBins * numCond ∧
      (∀ i s, i < numSpecies → index.get? s = some i →
        y[i]? = some (((conc.get? s).getD 0) * (if s = "H2O".toList then 1 else 25500000000))) ∧
      (∀ i, i < numSpecies → (∀ s, index.get? s ≠ some i) → y[i]? = some 0) ∧
      ∀ j, j < numBins * numCond → y[numSpecies + j]? = cond[j]? := by
  obtain ⟨y, h1, h2, h3, h4⟩ := assignLoop_ok index
    (fun s v => if s = "H2O".toList then v else v * cFactor) hinj conc
    (List.replicate (numSpecies + numCond * numBins) 0) hnd (by
      intro s hs
      obtain ⟨i, hi, hlt⟩ := hk s hs
      exact ⟨i, hi, by rw [List.length_replicate]; omega⟩)
  rw [List.length_replicate] at h2
  have hlen : (y.take numSpecies).length = numSpecies := by rw [List.length_take, h2]; omega
  have hdrop : y.drop (numSpecies + numBins * numCond) = [] := by
    rw [List.drop_eq_nil_iff, h2, Nat.mul_comm]
  have hget : ∀ i, i < numSpecies → (pySlice y numSpecies (numSpecies + numBins * numCond) cond)[i]? = y[i]? := by
    intro i hi
    unfold pySlice
    rw [hdrop, List.append_nil, List.getElem?_append_left (by omega), List.getElem?_take_of_lt hi]
  refine ⟨pySlice y numSpecies (numSpecies + numBins * numCond) cond, ?_, ?_, ?_, ?_, ?_⟩
  · rw [initialAerosol_eq, h1]
    rfl
  · unfold pySlice
    rw [hdrop, List.append_nil, List.length_append, hlen, hc]
  · intro i s hi hs
    rw [hget i hi]
    cases hcs : conc.get? s with
    | some v =>
      rw [h3 (s, v) (Dict.mem_of_get?_eq_some hcs) i hs]
      simp only [Option.getD_some]
      split
      · rw [mul_one]
      · rfl
    | none =>
      rw [h4 i (fun s' hs' he => ?_), List.getElem?_replicate, if_pos (by omega)]
      · simp
      · rw [hinj s' s i he hs] at hs'
        exact (Dict.get?_eq_none_iff _ _).1 hcs hs'
  · intro i hi hs
    rw [hget i hi, h4 i (fun s _ => hs s), List.getElem?_replicate, if_pos (by omega)]
  · intro j hj
    unfold pySlice
    rw [hdrop, List.append_nil, List.getElem?_append_right (by omega), hlen]
    congr 1
    omega

theorem C35_aerosol_unknown [CommRing K] {numSpecies numCond numBins : Nat} {index : Dict Str Nat} {conc : Dict Str K}
    (cond : List K) (hi : ∀ s i, index.get? s = some i → i < numSpecies)
    (hk : ∃ s ∈ conc.keys, index.get? s = none) :
    initialAerosol numSpecies numCond numBins index conc cond = .error .key := by
  have := assignLoop_unknown index (fun s v => if s = "H2O".toList then v else v * cFactor) conc
    (List.replicate (numSpecies + numCond * numBins) 0) (fun s i h => by
      rw [List.length_replicate]; have := hi s i h; omega) hk
  rw [initialAerosol_eq, this]
  rfl

/-- Two concentrations in the sample mechanism. -/
example : ∃ m, extractMechanism sampleText = .ok m ∧
    initialGas (K := ℚ) m.tables.species.length m.tables.index [("O3".toList, 18), ("NO".toList, 1)] =
      .ok [25500000000, 459000000000, 0, 0, 0, 0, 0] ∧
    initialGas (K := ℚ) m.tables.species.length m.tables.index [("XY".toList, 18)] = .error .key :=
  ⟨_, sample_parses, by decide +kernel, by decide +kernel⟩

end PyBox
