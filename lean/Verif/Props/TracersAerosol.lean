import Verif.Props.Tracers
import Verif.Props.ReorderedAerosol

/-!
# C105: adding tracers to simulations with particles

Reactions of tracers added to a mechanism move the places of all species in the state of a simulation with particles
(`/repo/Aerosol/f2py/ODE_solver.py`, 57-156). If no added species condenses, the simulated concentrations of the species
of the mechanism are what they were, in the gas and in every bin.
-/

namespace PyBox

open Set Spec Aerosol Rl

namespace Spec

/-- No added species condenses: every condensing species of the second simulation is one of the first. -/
def NoneCondense (R : ℕ → ℕ → Prop) (L L' : Aerosol.Layout) : Prop := ∀ i' ∈ L'.incl, ∃ i < L.numSpecies, R i i'

end Spec

section

variable {R : ℕ → ℕ → Prop} {L L' : Aerosol.Layout} {C C' : AeroConst} {G G' : ℝ → (ℕ → ℝ) → ℕ → ℝ} {n n' : ℕ}
  {F : ℝ → (Fin n → ℝ) → Fin n → ℝ} {F' : ℝ → (Fin n' → ℝ) → Fin n' → ℝ} {solve : (Fin n → ℝ) → ℚ → Fin n → ℝ}
  {solve' : (Fin n' → ℝ) → ℚ → Fin n' → ℝ} {sim batch : ℚ} {zero y0 : Fin n → ℝ} {zero' y0' : Fin n' → ℝ}
  {times times' : List ℚ} {rows : List (Fin n → ℝ)} {rows' : List (Fin n' → ℝ)}

/-- The places of the state in the state of the second simulation. -/
theorem slot_places (hR : PlacesIn R L.numSpecies L'.numSpecies) (hL : GoodLayout L) (hL' : GoodLayout L')
    (hp : SameParticles R L L' C C') (hadd : NoneCondense R L L') (hn : n = L.numSpecies + L.numBins * L.numCond)
    (hn' : n' = L'.numSpecies + L'.numBins * L'.numCond) :
    ∃ τ : Fin n → Fin n', ∀ (k : Fin n) (k' : Fin n'), SameSlot R L L' k k' ↔ k' = τ k := by
  have hcp := condPairs_within hR hL hL' hp.condense hadd
  have hl : ∀ k : Fin n, ∃ k' : Fin n', SameSlot R L L' k k' := by
    intro k
    by_cases hN : (k : ℕ) < L.numSpecies
    · obtain ⟨k', hk', hr⟩ := hR.left k hN
      exact ⟨⟨k', by omega⟩, .inl ⟨hN, hk', hr⟩⟩
    · obtain ⟨b, j, h1, h2, e⟩ := bin_place (k.2.trans_eq hn) hN
      obtain ⟨j', hj', hS⟩ := hcp.left j h2
      exact ⟨⟨_, hn' ▸ bin_place_lt (hp.bins ▸ h1) hj'⟩, .inr ⟨b, j, j', h1, hS, e, rfl⟩⟩
  choose τ hτ using hl
  refine ⟨τ, fun k k' => ⟨fun h2 => Fin.ext ?_, fun e => e ▸ hτ k⟩⟩
  rcases hτ k with ⟨a1, a2, a3⟩ | ⟨b, j, j', a1, a2, e1, e2⟩
  · rcases h2 with ⟨b1, b2, b3⟩ | ⟨b, j, j', b1, b2, e, -⟩
    · exact hR.unique _ _ _ a1 b2 a2 b3 a3
    · omega
  · rcases h2 with ⟨b1, b2, b3⟩ | ⟨b', l, l', b1, b2, e3, e4⟩
    · omega
    · obtain ⟨rfl, rfl⟩ := bin_place_inj (a2.lt hL hL').1 (b2.lt hL hL').1 (e1.symm.trans e3)
      rw [e2, e4, hcp.unique _ _ _ (a2.lt hL hL').1 (a2.lt hL hL').2 (b2.lt hL hL').2 a2 b2]

/-- A simulation with particles that is a part of another. -/
theorem MixedSystem.rows_part (hF : MixedSystem L C G F) (hF' : MixedSystem L' C' G' F') (hT : Tame F)
    (hB : BoxPieces F) (hR : PlacesIn R L.numSpecies L'.numSpecies) (hL : GoodLayout L) (hL' : GoodLayout L')
    (hp : SameParticles R L L' C C') (hadd : NoneCondense R L L')
    (hsys : ∀ t y y', SameState R L L' y y' → SameState R L L' (F t y) (F' t y'))
    (hs : 0 < sim) (hb : 0 < batch) (hy0 : ∀ i, 0 ≤ y0 i) (hyy : SameState R L L' y0 y0')
    (hrun : runSimulation id solve zero y0 sim batch = .ok (times, rows))
    (hrun' : runSimulation id solve' zero' y0' sim batch = .ok (times', rows'))
    (hex : ExactBatches F solve batch y0 rows.length) (hex' : ExactBatches F' solve' batch y0' rows'.length) :
    times = times' ∧ List.Forall₂ (SameState R L L') rows rows' := by
  obtain ⟨τ, hτ⟩ := slot_places hR hL hL' hp hadd hF.size hF'.size
  have hiff : ∀ (y : Fin n → ℝ) (y' : Fin n' → ℝ), SameState R L L' y y' ↔ y = y' ∘ τ := fun y y' => by
    constructor
    · intro h
      funext k
      exact h _ _ ((hτ _ _).2 rfl)
    · rintro rfl k k' hk
      rw [Function.comp_apply, ← (hτ _ _).1 hk]
  obtain rfl := (hiff y0 y0').1 hyy
  obtain ⟨h1, rfl⟩ := hT.rows_part hB τ (fun t z => (hiff _ _).1 (hsys t _ z ((hiff _ _).2 rfl))) hs hb hy0 hrun hrun'
    hex hex'
  refine ⟨h1, ?_⟩
  rw [List.forall₂_map_left_iff]
  exact List.forall₂_same.2 fun y _ => (hiff _ _).2 rfl

end

section

variable {text text' : Str} {m m' : Mechanism} {qs extra qs' : List RawEqn} {cores cores' : Option ℕ}
  {L L' : Aerosol.Layout} {C C' : AeroConst} {rates rates' : Rates} {start h2o : ℝ} {n n' : ℕ}
  {F : ℝ → (Fin n → ℝ) → Fin n → ℝ} {F' : ℝ → (Fin n' → ℝ) → Fin n' → ℝ}

theorem name_at (h : extractMechanism text = .ok m) (hq : Reads text m.equations.toNat qs) {s s' : Str} {i : ℕ}
    (h1 : m.tables.index.get? s = some i) (h2 : m.tables.index.get? s' = some i) : s = s' := by
  obtain ⟨sp, hsp, -⟩ := index_sum h hq rfl
  have hl := (C01_indices h _).1 ⟨_, h1⟩
  exact ((hsp ⟨_, hl⟩ _).1 h1).trans ((hsp ⟨_, hl⟩ _).1 h2).symm

/-- The places of the gas species in a file with more of them. -/
theorem gasPlaces (h : extractMechanism text = .ok m) (hq : Reads text m.equations.toNat qs)
    (h' : extractMechanism text' = .ok m') (hq' : Reads text' m'.equations.toNat qs') (hsub : SpeciesOf m m')
    (hns : L.numSpecies = m.tables.species.length + 1) (hns' : L'.numSpecies = m'.tables.species.length + 1) :
    PlacesIn (SameGas m m') L.numSpecies L'.numSpecies := by
  have hlt : ∀ {s i}, m.tables.index.get? s = some i → i < m.tables.species.length := fun hi => (C01_indices h _).1 ⟨_, hi⟩
  have hlt' : ∀ {s i}, m'.tables.index.get? s = some i → i < m'.tables.species.length :=
    fun hi => (C01_indices h' _).1 ⟨_, hi⟩
  refine ⟨fun i hi => ?_, fun i i' k' _ _ _ h1 h2 => ?_, fun i k i' _ _ _ h1 h2 => ?_⟩
  · by_cases hl : i < m.tables.species.length
    · obtain ⟨s, hs⟩ := (C01_indices h i).2 hl
      obtain ⟨i', hi'⟩ := hsub s ⟨i, hs⟩
      have := hlt' hi'
      exact ⟨i', by omega, .inl ⟨s, hs, hi'⟩⟩
    · exact ⟨m'.tables.species.length, by omega, .inr ⟨by omega, rfl⟩⟩
  · rcases h1 with ⟨s, a, a'⟩ | ⟨a, a'⟩ <;> rcases h2 with ⟨s', b, b'⟩ | ⟨b, b'⟩
    · obtain rfl := name_at h hq a b
      exact Option.some.inj (a'.symm.trans b')
    · have := hlt a
      omega
    · have := hlt b
      omega
    · omega
  · rcases h1 with ⟨s, a, a'⟩ | ⟨a, a'⟩ <;> rcases h2 with ⟨s', b, b'⟩ | ⟨b, b'⟩
    · obtain rfl := name_at h' hq' a' b'
      exact Option.some.inj (a.symm.trans b)
    · have := hlt' a'
      omega
    · have := hlt' b'
      omega
    · omega

/-- **C105**: in states that hold the same for every species of the mechanism in the gas and in every bin, `dydt_func`
of both simulations gives these species the same tendency there. -/
theorem C105_tendencies (h : extractMechanism text = .ok m) (hq : Reads text m.equations.toNat qs)
    (h' : extractMechanism text' = .ok m') (hq' : Reads text' m'.equations.toNat qs') (hre : Extends qs extra qs')
    (hrad : SameRadicals qs extra) (htr : Tracers qs extra)
    (hns : L.numSpecies = m.tables.species.length + 1) (hns' : L'.numSpecies = m'.tables.species.length + 1)
    (hL : GoodLayout L) (hL' : GoodLayout L') (hp : SameParticles (SameGas m m') L L' C C')
    (hadd : NoneCondense (SameGas m m') L L')
    (hF : AerosolSystem m cores L C rates start h2o F) (hF' : AerosolSystem m' cores' L' C' rates' start h2o F')
    {K : Str → ℝ → ℝ → ℝ} (hK : RatesByText qs rates h2o C.temp K) (hK' : RatesByText qs' rates' h2o C'.temp K)
    (t : ℝ) {y : Fin n → ℝ} {y' : Fin n' → ℝ} (hy : SameState (SameGas m m') L L' y y') :
    SameState (SameGas m m') L L' (F t y) (F' t y') := by
  obtain ⟨sp, hsp, -⟩ := index_sum h hq rfl
  obtain ⟨sp', hsp', -⟩ := index_sum h' hq' rfl
  have hR := gasPlaces h hq h' hq' (hre.species h hq h' hq') hns hns'
  have hlt : ∀ {s i}, m.tables.index.get? s = some i → i < m.tables.species.length := fun hi => (C01_indices h _).1 ⟨_, hi⟩
  have hlt' : ∀ {s i}, m'.tables.index.get? s = some i → i < m'.tables.species.length :=
    fun hi => (C01_indices h' _).1 ⟨_, hi⟩
  refine (hF.mixed h hq hns hsp).tendency_same (hF'.mixed h' hq' hns' hsp') (condPairs_within hR hL hL' hp.condense hadd)
    (fun i i' _ _ hi => ?_) hL hL' hp hy (fun i i' hi hi' hg => ?_)
  · rcases hi with ⟨s, a, a'⟩ | ⟨a, a'⟩
    · have := hlt a
      have := hlt' a'
      omega
    · omega
  · have hl : i < m.tables.species.length := by omega
    have hl' : i' < m'.tables.species.length := by omega
    obtain ⟨s, a, a'⟩ : ∃ s, m.tables.index.get? s = some i ∧ m'.tables.index.get? s = some i' := by
      rcases hg with hg | ⟨e, -⟩
      · exact hg
      · omega
    unfold gasPart
    rw [dif_pos hl, dif_pos hl', ← (hsp ⟨i, hl⟩ s).1 a, ← (hsp' ⟨i', hl'⟩ s).1 a', ← hp.temp]
    rw [← hp.temp] at hK'
    refine kineticValue_tracers h hq h' hq' hre hrad (netF_of h hq) (netF_of h' hq') netOfF_same
      (fun q hqm s hs hc => (htr q hqm s hs hc).netF) hK hK' t (fun s j j' hj hj' => ?_) a
    have := hlt hj
    have := hlt' hj'
    exact hy.lookup hF.1 hF'.1 hL hL' hp.bins (.inl ⟨by omega, by omega, .inl ⟨s, hj, hj'⟩⟩)

/-- **C105**: the reported mass of organic aerosol is the same. -/
theorem C105_soa (h : extractMechanism text = .ok m) (hq : Reads text m.equations.toNat qs)
    (h' : extractMechanism text' = .ok m') (hq' : Reads text' m'.equations.toNat qs') (hre : Extends qs extra qs')
    (hns : L.numSpecies = m.tables.species.length + 1) (hns' : L'.numSpecies = m'.tables.species.length + 1)
    (hL : GoodLayout L) (hL' : GoodLayout L') (hp : SameParticles (SameGas m m') L L' C C')
    (hadd : NoneCondense (SameGas m m') L L') (hn : n = L.numSpecies + L.numBins * L.numCond)
    (hn' : n' = L'.numSpecies + L'.numBins * L'.numCond) {y : Fin n → ℝ} {y' : Fin n' → ℝ}
    (hy : SameState (SameGas m m') L L' y y') :
    totalSoaMass L (partArgs L C (stateOf y)) = totalSoaMass L' (partArgs L' C' (stateOf y')) :=
  C101_soa hn hn' (condPairs_within (gasPlaces h hq h' hq' (hre.species h hq h' hq') hns hns') hL hL' hp.condense hadd)
    hL hL' hp hy

/-- **C105**: two simulations with particles and exact solvers, of a mechanism and of the mechanism with tracers none of
which condenses, with the same particles and started with the same concentrations of the species of the mechanism, report
the same times and at each the same concentration of every species of the mechanism in the gas and in every bin. -/
theorem C105_rows (h : extractMechanism text = .ok m) (hq : Reads text m.equations.toNat qs)
    (h' : extractMechanism text' = .ok m') (hq' : Reads text' m'.equations.toNat qs') (hre : Extends qs extra qs')
    (hrad : SameRadicals qs extra) (htr : Tracers qs extra)
    (hns : L.numSpecies = m.tables.species.length + 1) (hns' : L'.numSpecies = m'.tables.species.length + 1)
    (hL : GoodLayout L) (hL' : GoodLayout L') (hC : PhysConst L C) (hp : SameParticles (SameGas m m') L L' C C')
    (hadd : NoneCondense (SameGas m m') L L')
    (hpos : ∀ q ∈ qs, ∀ p ∈ chemReactants q ++ chemProducts q, 0 < p.1) (hone : WholeReactants qs)
    (hr : PiecewiseRates rates start h2o C.temp)
    (hF : AerosolSystem m cores L C rates start h2o F) (hF' : AerosolSystem m' cores' L' C' rates' start h2o F')
    {K : Str → ℝ → ℝ → ℝ} (hK : RatesByText qs rates h2o C.temp K) (hK' : RatesByText qs' rates' h2o C'.temp K)
    {solve : (Fin n → ℝ) → ℚ → Fin n → ℝ} {solve' : (Fin n' → ℝ) → ℚ → Fin n' → ℝ} {sim batch : ℚ}
    {zero y0 : Fin n → ℝ} {zero' y0' : Fin n' → ℝ}
    {times times' : List ℚ} {rows : List (Fin n → ℝ)} {rows' : List (Fin n' → ℝ)}
    (hs : 0 < sim) (hb : 0 < batch) (hy0 : ∀ i, 0 ≤ y0 i) (hyy : SameState (SameGas m m') L L' y0 y0')
    (hrun : runSimulation id solve zero y0 sim batch = .ok (times, rows))
    (hrun' : runSimulation id solve' zero' y0' sim batch = .ok (times', rows'))
    (hex : ExactBatches F solve batch y0 rows.length) (hex' : ExactBatches F' solve' batch y0' rows'.length) :
    times = times' ∧ List.Forall₂ (SameState (SameGas m m') L L') rows rows' := by
  obtain ⟨sp, hsp, -⟩ := index_sum h hq rfl
  obtain ⟨sp', hsp', -⟩ := index_sum h' hq' rfl
  exact (hF.mixed h hq hns hsp).rows_part (hF'.mixed h' hq' hns' hsp') (hF.tame h hq hns hL hC hpos hone hr.regular)
    (hF.boxPieces h hq hns hL hC hone hr) (gasPlaces h hq h' hq' (hre.species h hq h' hq') hns hns') hL hL' hp hadd
    (fun t y y' hy => C105_tendencies h hq h' hq' hre hrad htr hns hns' hL hL' hp hadd hF hF' hK hK' t hy)
    hs hb hy0 hyy hrun hrun' hex hex'

variable {conv : ℕ} {num num' : ℚ → Str} {f f' : AeroFiles} {junk junk' : Vals} {M : ℝ → (ℕ → ℝ) → Machine L}
  {M' : ℝ → (ℕ → ℝ) → Machine L'}

/-- **C105**: the same for the systems given by the texts of the generated files, whatever the numbers of cores, the
printed coefficients, the memory, threads and orders of execution. -/
theorem C105_files (h : extractMechanism text = .ok m) (hq : Reads text m.equations.toNat qs)
    (h' : extractMechanism text' = .ok m') (hq' : Reads text' m'.equations.toNat qs') (hre : Extends qs extra qs')
    (hrad : SameRadicals qs extra) (htr : Tracers qs extra)
    (hns : L.numSpecies = m.tables.species.length + 1) (hns' : L'.numSpecies = m'.tables.species.length + 1)
    (hL : GoodLayout L) (hL' : GoodLayout L') (hc : 1 ≤ L.numCond) (hC : PhysConst L C)
    (hp : SameParticles (SameGas m m') L L' C C') (hadd : NoneCondense (SameGas m m') L L')
    (hpos : ∀ q ∈ qs, ∀ p ∈ chemReactants q ++ chemProducts q, 0 < p.1) (hone : WholeReactants qs)
    (hw : Prints num id m.tables) (hw' : Prints num' id m'.tables)
    (hf : f.WrittenFor m cores conv num L) (hf' : f'.WrittenFor m' cores' conv num' L')
    (hread' : ReadableRates .fortran ((convertOf .fortran)^[conv]) qs')
    (hnn : NonnegRates .fortran ((convertOf .fortran)^[conv]) qs h2o C.temp)
    (hM : ∀ t y, (M t y).Orderly) (hM' : ∀ t y, (M' t y).Orderly)
    (hF : FileSystem f m L C junk M start h2o F) (hF' : FileSystem f' m' L' C' junk' M' start h2o F')
    {solve : (Fin n → ℝ) → ℚ → Fin n → ℝ} {solve' : (Fin n' → ℝ) → ℚ → Fin n' → ℝ} {sim batch : ℚ}
    {zero y0 : Fin n → ℝ} {zero' y0' : Fin n' → ℝ}
    {times times' : List ℚ} {rows : List (Fin n → ℝ)} {rows' : List (Fin n' → ℝ)}
    (hs : 0 < sim) (hb : 0 < batch) (hy0 : ∀ i, 0 ≤ y0 i) (hyy : SameState (SameGas m m') L L' y0 y0')
    (hrun : runSimulation id solve zero y0 sim batch = .ok (times, rows))
    (hrun' : runSimulation id solve' zero' y0' sim batch = .ok (times', rows'))
    (hex : ExactBatches F solve batch y0 rows.length) (hex' : ExactBatches F' solve' batch y0' rows'.length) :
    times = times' ∧ List.Forall₂ (SameState (SameGas m m') L L') rows rows' := by
  have hread := readable_part hre hread'
  have hR := gasPlaces h hq h' hq' (hre.species h hq h' hq') hns hns'
  have hc' : 1 ≤ L'.numCond := by
    obtain ⟨j', hj', -⟩ := (condPairs_within hR hL hL' hp.condense hadd).left 0 hc
    omega
  obtain ⟨p, hpr, -⟩ := C66_value h hq (b := .fortran) (by decide) cores hread
  obtain ⟨p', hpr', -⟩ := C66_value h' hq' (b := .fortran) (by decide) cores' hread'
  have hA := ((C72_system h hw hL hc hf (hf.rates ▸ hpr) hM).1 hF).congr h hq hns
    (rates' := generatedRates .fortran p fun _ => 0) fun t r e he =>
      fortran_rates_eq h hq hread hpr hpr junk (fun _ => 0) t r h2o C.temp he
  have hA' := (C72_system h' hw' hL' hc' hf' (hf'.rates ▸ hpr') hM').1 hF'
  exact C105_rows h hq h' hq' hre hrad htr hns hns' hL hL' hC hp hadd hpos hone
    (C66_piecewise h hq (by decide) hread hpr (fun _ => le_refl _) start hnn) hA hA'
    (generated_by_text h hq (by decide) hread hpr _ h2o C.temp)
    (by rw [← hp.temp]; exact generated_by_text h' hq' (by decide) hread' hpr' _ h2o C.temp)
    hs hb hy0 hyy hrun hrun' hex hex'

end

/-! ## A case the theorems apply to -/

/-- `tracerText` with two bins: formaldehyde, nitrogen dioxide and water condense, both forms of the tracer do not. -/
def tracerLayout : Aerosol.Layout := ⟨2, 8, 3, [4, 5, 7]⟩

theorem tracerLayout_good : GoodLayout tracerLayout := ⟨rfl, by decide, by decide⟩

theorem tracer_species : tracerLayout.numSpecies = (build tracerReactions).species.length + 1 := by decide +kernel

abbrev tracerMechanism : Mechanism := ⟨build tracerReactions, 3⟩

theorem tracer_gasPlaces : PlacesIn (SameGas radicalMechanism tracerMechanism) 6 8 :=
  gasPlaces (L := threeLayout) (L' := tracerLayout) radical_parses radical_reads tracer_parses tracer_reads
    ((extends_cons _ _).species radical_parses radical_reads tracer_parses tracer_reads) three_species tracer_species

theorem tracer_pairs : ∀ i < 6, SameGas radicalMechanism tracerMechanism i ([3, 0, 4, 5, 6, 7].getD i 0) := by
  intro i hi
  interval_cases i
  · exact .inl ⟨"CH3O2".toList, by decide +kernel, by decide +kernel⟩
  · exact .inl ⟨"NO".toList, by decide +kernel, by decide +kernel⟩
  · exact .inl ⟨"HCHO".toList, by decide +kernel, by decide +kernel⟩
  · exact .inl ⟨"NO2".toList, by decide +kernel, by decide +kernel⟩
  · exact .inl ⟨"O".toList, by decide +kernel, by decide +kernel⟩
  · exact .inr ⟨by decide +kernel, by decide +kernel⟩

theorem tracer_lt {i i' : ℕ} (h : SameGas radicalMechanism tracerMechanism i i') : i < 6 ∧ i' < 8 := by
  have e : (build radicalReactions).species.length = 5 := by decide +kernel
  have e' := tracer_seven
  rcases h with ⟨s, a, a'⟩ | ⟨a, a'⟩
  · have h1 := (C01_indices radical_parses i).1 ⟨s, a⟩
    have h2 := (C01_indices tracer_parses i').1 ⟨s, a'⟩
    dsimp only at h1 h2
    omega
  · dsimp only at a a'
    omega

/-- The place of every gas in the other simulation. -/
theorem tracer_gas {i i' : ℕ} (h : SameGas radicalMechanism tracerMechanism i i') :
    i < 6 ∧ i' = [3, 0, 4, 5, 6, 7].getD i 0 := by
  obtain ⟨a, b⟩ := tracer_lt h
  exact ⟨a, tracer_gasPlaces.unique i i' _ a b (tracer_lt (tracer_pairs i a)).2 h (tracer_pairs i a)⟩

theorem tracer_cond {j j' : ℕ} (h : SameCond (SameGas radicalMechanism tracerMechanism) threeLayout tracerLayout j j') :
    j < 3 ∧ j' = j := by
  have hlt := h.lt threeLayout_good tracerLayout_good
  obtain ⟨i, i', h1, h2, h3⟩ := h
  have e := (tracer_gas h3).2
  obtain ⟨a, b⟩ := hlt
  simp only [threeLayout, tracerLayout] at a b h1 h2
  refine ⟨a, ?_⟩
  interval_cases j <;> interval_cases j' <;> simp at h1 h2 <;> subst h1 <;> subst h2 <;> simp at e <;> simp

theorem tracer_particles :
    SameParticles (SameGas radicalMechanism tracerMechanism) threeLayout tracerLayout threeConst threeConst where
  bins := rfl
  condense i i' h := by
    obtain ⟨a, rfl⟩ := tracer_gas h
    interval_cases i <;> decide
  last j j' h := by
    obtain ⟨-, rfl⟩ := tracer_cond h
    rfl
  ycore _ _ := rfl
  coreMw _ _ := rfl
  coreDensity _ _ := rfl
  nPerBin _ _ := rfl
  densityInput _ _ _ := rfl
  dStar _ _ _ := rfl
  alpha _ _ _ := rfl
  gamma _ _ _ := rfl
  mw j j' h := by rw [(tracer_cond h).2]
  satVp j j' h _ := by rw [(tracer_cond h).2]
  coreDiss := rfl
  sigma := rfl
  na := rfl
  rGas := rfl
  temp := rfl

theorem tracer_none : NoneCondense (SameGas radicalMechanism tracerMechanism) threeLayout tracerLayout := by
  intro i' hi'
  have : i' = 4 ∨ i' = 5 ∨ i' = 7 := by simpa [tracerLayout] using hi'
  rcases this with rfl | rfl | rfl
  · exact ⟨2, by decide, tracer_pairs 2 (by norm_num)⟩
  · exact ⟨3, by decide, tracer_pairs 3 (by norm_num)⟩
  · exact ⟨5, by decide, tracer_pairs 5 (by norm_num)⟩

theorem ones_sameNet {qs : List RawEqn} {e : ℤ} (h1 : ∀ l ∈ [(build qs).gain, (build qs).loss], ∀ p ∈ l, ∀ r ∈ p.2, r.2 = 1) :
    SameNet ⟨build qs, e⟩ := by
  have h2 : ∀ (l : Dict Str (Dict ℕ ℚ)) s e, (∀ p ∈ l, ∀ r ∈ p.2, r.2 = 1) →
      altered (cell l s e) = false := by
    intro l s e hl
    cases hc : cell l s e with
    | none => rfl
    | some c =>
      unfold cell at hc
      cases hd : l.get? s with
      | none =>
        unfold Dict.getD at hc
        rw [hd] at hc
        cases hc
      | some d =>
        rw [getD_of_get? hd] at hc
        have := hl _ (Dict.mem_of_get?_eq_some hd) _ (Dict.mem_of_get?_eq_some hc)
        simp only at this
        simp [altered, this]
  intro s i e _ _
  exact (h2 _ s e (h1 _ (by simp))).trans (h2 _ s e (h1 _ (by simp))).symm

/-- All hypotheses are met by `radicalText` and `tracerText` with two bins and three condensing species: both systems
exist, both have exact solvers, and two simulations started with the same concentrations of the five species and water,
and any of the tracer, report the same concentrations in the gas and in the bins. -/
theorem tracer_aerosol_run (cores cores' : Option ℕ) :
    ∃ (F : ℝ → (Fin 12 → ℝ) → Fin 12 → ℝ) (F' : ℝ → (Fin 14 → ℝ) → Fin 14 → ℝ) (solve : (Fin 12 → ℝ) → ℚ → Fin 12 → ℝ)
      (solve' : (Fin 14 → ℝ) → ℚ → Fin 14 → ℝ),
      AerosolSystem radicalMechanism cores threeLayout threeConst wavyRates 0 0 F ∧
      AerosolSystem tracerMechanism cores' tracerLayout threeConst wavyRates 0 0 F' ∧
      ∀ y0 : Fin 12 → ℝ, (∀ i, 0 ≤ y0 i) → ∀ y0' : Fin 14 → ℝ, (∀ i, 0 ≤ y0' i) →
        SameState (SameGas radicalMechanism tracerMechanism) threeLayout tracerLayout y0 y0' →
        (∀ k, ExactBatches F solve 60 y0 k) ∧ (∀ k, ExactBatches F' solve' 60 y0' k) ∧
        ∃ rows rows', runSimulation id solve (fun _ => 0) y0 (((2 : ℕ) : ℚ) * 60) 60 = .ok ([60, 120], rows) ∧
          runSimulation id solve' (fun _ => 0) y0' (((2 : ℕ) : ℚ) * 60) 60 = .ok ([60, 120], rows') ∧
          List.Forall₂ (SameState (SameGas radicalMechanism tracerMechanism) threeLayout tracerLayout) rows rows' := by
  have hg : ∀ q ∈ radicalReactions, GainGood q := fun q hq => (radical_regular q hq).gain
  have hg' : ∀ q ∈ tracerReactions, GainGood q := by decide +kernel
  have hro : ∃ s ∈ ro2Names, (radicalMechanism.tables.index.get? s).isSome := ⟨"CH3O2".toList, by decide +kernel⟩
  have hro' : ∃ s ∈ ro2Names, (tracerMechanism.tables.index.get? s).isSome := ⟨"CH3O2".toList, by decide +kernel⟩
  have hpos' : (∀ q ∈ tracerReactions, ∀ p ∈ chemReactants q ++ chemProducts q, 0 < p.1) ∧
      (∀ q ∈ tracerReactions, ∀ s ∈ names (chemReactants q), 1 ≤ coef (chemReactants q) s) := by decide +kernel
  have hnet : SameNet tracerMechanism := ones_sameNet (by decide +kernel)
  obtain ⟨F, hF⟩ := written_aerosol radical_parses (allWritten_of_good radical_parses radical_reads hg) hro cores
    threeLayout three_species threeConst wavyRates 0 0 (n := 12) rfl
  obtain ⟨F', hF'⟩ := written_aerosol tracer_parses (allWritten_of_good tracer_parses tracer_reads hg') hro' cores'
    tracerLayout tracer_species threeConst wavyRates 0 0 (n := 14) rfl
  have hphys' : PhysConst tracerLayout threeConst := by
    have h := threeConst_phys
    exact { h with }
  obtain ⟨solve, hs⟩ := C64_exists radical_parses radical_reads radical_sameNet.less threeLayout_good
    threeConst_phys three_species (by decide) radical_positive.1 radical_positive.2 radical_weights
    (wavyRates_smooth 0 0 _).piecewise hF (batch := 60) (by norm_num)
  obtain ⟨solve', hs'⟩ := C64_exists tracer_parses tracer_reads hnet.less tracerLayout_good
    hphys' tracer_species (by decide) hpos'.1 hpos'.2 tracer_weights
    (wavyRates_smooth 0 0 _).piecewise hF' (batch := 60) (by norm_num)
  refine ⟨F, F', solve, solve', hF, hF', fun y0 hy0 y0' hy0' hyy => ⟨hs y0 hy0, hs' y0' hy0', ?_⟩⟩
  obtain ⟨rows, hrun⟩ := two_batches solve y0
  obtain ⟨rows', hrun'⟩ := two_batches solve' y0'
  exact ⟨_, _, hrun, hrun', (C105_rows (K := fun _ t r => 2 + Real.sin t + |r|) radical_parses radical_reads
    tracer_parses tracer_reads (extends_cons _ _) tracer_radicals tracer_alone three_species tracer_species
    threeLayout_good tracerLayout_good threeConst_phys tracer_particles tracer_none radical_positive.1
    radical_positive.2 (wavyRates_smooth 0 0 _).piecewise hF hF' (fun _ _ _ _ _ => rfl) (fun _ _ _ _ _ => rfl)
    (by norm_num) (by norm_num) hy0 hyy hrun hrun' (hs y0 hy0 _) (hs' y0' hy0' _)).2⟩

end PyBox
