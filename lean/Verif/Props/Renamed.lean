import Verif.Props.Order

/-!
# C110: names of species

The names of the species decide which species are the photon, which are held constant and which are peroxy radicals, and nothing
else.
-/

namespace PyBox

open Set Spec Aerosol Rl

namespace Spec

/-- The reaction with every species named anew. -/
def renamed (ρ : Str → Str) (q : RawEqn) : RawEqn :=
  { reactants := q.reactants.map fun p => (p.1, ρ p.2)
    products := q.products.map fun p => (p.1, ρ p.2)
    rate := q.rate }

/-- Different species get different names; the photon stays the photon, species held constant get names of species held
constant, peroxy radicals get names of peroxy radicals, and no others do. -/
structure Renaming (ρ : Str → Str) : Prop where
  injective : Function.Injective ρ
  empty : ρ [] = []
  photon : ρ hv = hv
  held : ∀ s, ρ s ∈ heldConstant ↔ s ∈ heldConstant
  radicals : ∀ s, ρ s ∈ ro2Names ↔ s ∈ ro2Names

end Spec

attribute [local irreducible] rateProgram

/-! ## Reactions -/

section

variable {ρ : Str → Str}

theorem coef_renamed (hρ : Function.Injective ρ) (s : Str) : ∀ l : List (ℚ × Str),
    coef (l.map fun p => (p.1, ρ p.2)) (ρ s) = coef l s
  | [] => rfl
  | p :: l => by
    rw [List.map_cons, coef_cons, coef_cons, coef_renamed hρ s l]
    by_cases h : p.2 = s
    · rw [if_pos h, if_pos (show ρ p.2 = ρ s by rw [h])]
    · rw [if_neg h, if_neg (fun hc => h (hρ hc))]

theorem names_renamed (l : List (ℚ × Str)) : names (l.map fun p => (p.1, ρ p.2)) = (names l).map ρ := by
  unfold names
  rw [List.map_map, List.map_map]
  rfl

theorem filter_renamed (hρ : Renaming ρ) (l : List (ℚ × Str)) :
    (l.map fun p => (p.1, ρ p.2)).filter (fun p => p.2 ≠ hv) = (l.filter fun p => p.2 ≠ hv).map fun p => (p.1, ρ p.2) := by
  rw [List.filter_map]
  congr 1
  refine List.filter_congr fun p _ => ?_
  show decide (ρ p.2 ≠ hv) = decide (p.2 ≠ hv)
  exact decide_eq_decide.2 (not_congr ⟨fun h => hρ.injective (h.trans hρ.photon.symm), fun h => by rw [h, hρ.photon]⟩)

theorem chemReactants_renamed (hρ : Renaming ρ) (q : RawEqn) :
    chemReactants (renamed ρ q) = (chemReactants q).map fun p => (p.1, ρ p.2) := filter_renamed hρ _

theorem gainStep_renamed (hρ : Function.Injective ρ) (last : Str) : ∀ (l : List (ℚ × Str)) (g g' : Str → Option ℚ),
    (∀ s, g' (ρ s) = g s) → ∀ s, (l.map fun p => (p.1, ρ p.2)).foldl (gainStep (ρ last)) g' (ρ s) =
      l.foldl (gainStep last) g s
  | [], _, _, h, s => h s
  | p :: l, g, g', h, s => by
    rw [List.map_cons, List.foldl_cons, List.foldl_cons]
    refine gainStep_renamed hρ last l _ _ (fun s => ?_) s
    unfold gainStep
    rw [h last]
    cases g last <;> dsimp only <;> by_cases hs : s = p.2
    · rw [if_pos hs, if_pos (by rw [hs])]
    · rw [if_neg hs, if_neg (fun hc => hs (hρ hc)), h]
    · rw [if_pos hs, if_pos (by rw [hs]), h]
    · rw [if_neg hs, if_neg (fun hc => hs (hρ hc)), h]

theorem lastReactant_renamed (hρ : Renaming ρ) (q : RawEqn) : lastReactant (renamed ρ q) = ρ (lastReactant q) := by
  unfold lastReactant renamed
  rw [List.getLast?_map]
  cases q.reactants.getLast? with
  | none => exact hρ.empty.symm
  | some p => rfl

theorem gainEntry_renamed (hρ : Renaming ρ) (q : RawEqn) (s : Str) : gainEntry (renamed ρ q) (ρ s) = gainEntry q s := by
  unfold gainEntry
  rw [lastReactant_renamed hρ, show nonHv (renamed ρ q).products = (nonHv q.products).map fun p => (p.1, ρ p.2) from
    filter_renamed hρ _]
  exact gainStep_renamed hρ.injective _ _ _ _ (fun _ => rfl) s

theorem netOf_renamed (hρ : Renaming ρ) (q : RawEqn) (s : Str) : netOf (renamed ρ q) (ρ s) = netOf q s := by
  unfold netOf
  rw [gainCoef_asRecorded, gainCoef_asRecorded, gainEntry_renamed hρ, chemReactants_renamed hρ, coef_renamed hρ.injective]

theorem netOfF_renamed (hρ : Renaming ρ) (q : RawEqn) (s : Str) : netOfF (renamed ρ q) (ρ s) = netOfF q s := by
  unfold netOfF
  rw [gainCoef_asRecorded, gainCoef_asRecorded, gainEntry_renamed hρ, chemReactants_renamed hρ, coef_renamed hρ.injective,
    names_renamed, if_congr (List.mem_map_of_injective hρ.injective) rfl rfl]

theorem addName_renamed (hρ : Renaming ρ) : ∀ (l ns : List Str), (l.map ρ).foldl addName (ns.map ρ) =
    (l.foldl addName ns).map ρ
  | [], _ => rfl
  | s :: l, ns => by
    have e : addName (ns.map ρ) (ρ s) = (addName ns s).map ρ := by
      unfold addName
      have h1 : ρ s = hv ↔ s = hv := ⟨fun h => hρ.injective (h.trans hρ.photon.symm), fun h => by rw [h, hρ.photon]⟩
      by_cases h : s = hv ∨ s ∈ ns
      · rw [if_pos h, if_pos (by rw [h1, List.mem_map_of_injective hρ.injective]; exact h)]
      · rw [if_neg h, if_neg (by rw [h1, List.mem_map_of_injective hρ.injective]; exact h), List.map_append]
        rfl
    rw [List.map_cons, List.foldl_cons, List.foldl_cons, e]
    exact addName_renamed hρ l _

theorem registered_renamed (hρ : Renaming ρ) (qs : List RawEqn) :
    registered (qs.map (renamed ρ)) = (registered qs).map ρ := by
  unfold registered
  rw [← addName_renamed hρ, List.map_flatMap, List.flatMap_map]
  congr 1
  refine List.flatMap_congr fun q _ => ?_
  unfold renamed
  dsimp only
  rw [names_renamed, names_renamed, List.map_append]

theorem radicals_perm (hρ : Renaming ρ) : (ro2Names.map ρ).Perm ro2Names := by
  refine (List.subperm_of_subset (ro2Names_nodup.map hρ.injective) fun s hs => ?_).perm_of_length_le
    (by rw [List.length_map])
  obtain ⟨s', h, rfl⟩ := List.mem_map.1 hs
  exact (hρ.radicals s').2 h

end

/-! ## Systems -/

section

variable {ρ : Str → Str} {text text' : Str} {m m' : Mechanism} {qs : List RawEqn} {A A' : Str → ℕ → ℝ} {rates rates' : Rates}
  {start h2o temp : ℝ} {n : ℕ} {F F' : ℝ → (Fin n → ℝ) → Fin n → ℝ}

/-- **C110**: every species keeps its place. -/
theorem C110_places (h : extractMechanism text = .ok m) (hq : Reads text m.equations.toNat qs)
    (h' : extractMechanism text' = .ok m') (hq' : Reads text' m'.equations.toNat (qs.map (renamed ρ))) (hρ : Renaming ρ) :
    m'.tables.species.length = m.tables.species.length ∧
      ∀ s, m'.tables.index.get? (ρ s) = m.tables.index.get? s := by
  rw [(extract_tables h hq).1, (extract_tables h' hq').1]
  have hi := spInv_build qs
  have hi' := spInv_build (qs.map (renamed ρ))
  have hreg := registered_renamed hρ qs
  refine ⟨by rw [hi.species_eq, hi'.species_eq, hreg]; simp, fun s => Option.ext fun i => ?_⟩
  rw [hi.index_eq, hi'.index_eq, zipIdx_get? _ hi.nodup, zipIdx_get? _ hi'.nodup, hreg, List.getElem?_map]
  constructor
  · intro he
    obtain ⟨s', h1, h2⟩ := Option.map_eq_some_iff.1 he
    rw [h1, hρ.injective h2]
  · intro he
    rw [he]
    rfl

theorem codeProduct_renamed (hρ : Renaming ρ) (q : RawEqn) {c c' : Str → ℝ} (hc : ∀ s, c' (ρ s) = c s) :
    codeProduct (renamed ρ q) c' = codeProduct q c := by
  unfold codeProduct
  rw [chemReactants_renamed hρ]
  by_cases hn : chemReactants q = []
  · rw [if_pos hn, if_pos (by rw [hn]; rfl)]
  · rw [if_neg hn, if_neg (fun h0 => hn (List.map_eq_nil_iff.1 h0)), names_renamed, List.map_map]
    refine congrArg List.prod (List.map_congr_left fun s _ => ?_)
    rw [Function.comp_apply, coef_renamed hρ.injective, hc]

theorem kineticValue_renamed (hρ : Renaming ρ) (hidx : ∀ s, m'.tables.index.get? (ρ s) = m.tables.index.get? s)
    {a : RawEqn → Str → ℝ} (hA : ∀ s (e : ℕ) q, qs[e]? = some q → A s e = a q s)
    (hA' : ∀ s (e : ℕ) q, (qs.map (renamed ρ))[e]? = some q → A' s e = a q s)
    (ha : ∀ q s, a (renamed ρ q) (ρ s) = a q s) {K : Str → ℝ → ℝ → ℝ} (hK : RatesByText qs rates h2o temp K)
    (hK' : RatesByText (qs.map (renamed ρ)) rates' h2o temp K) (s : Str) (t : ℝ) (y : ℕ → ℝ) :
    kineticValue m' (qs.map (renamed ρ)) A' rates' start h2o temp (ρ s) t y =
      kineticValue m qs A rates start h2o temp s t y := by
  have hr : ((ro2Indices m'.tables.index).map y).sum = ((ro2Indices m.tables.index).map y).sum := by
    rw [ro2Indices_eq, ro2Indices_eq, ← (((radicals_perm hρ).filterMap _).map _).sum_eq, List.filterMap_map]
    congr 3
    funext s
    exact hidx s
  unfold kineticValue
  rw [if_congr (hρ.held s) rfl rfl]
  by_cases hx : s ∈ heldConstant
  · rw [if_pos hx, if_pos hx]
  rw [if_neg hx, if_neg hx, hr, List.length_map]
  refine Finset.sum_congr rfl fun e he => ?_
  have he := Finset.mem_range.1 he
  have e1 : qs[e]? = some qs[e] := List.getElem?_eq_getElem he
  have e2 : (qs.map (renamed ρ))[e]? = some (renamed ρ qs[e]) := by rw [List.getElem?_map, e1]; rfl
  rw [hA s e _ e1, hA' (ρ s) e _ e2, ha, hK e _ e1, hK' e _ e2]
  unfold reactionProduct
  rw [e1, e2]
  dsimp only
  rw [codeProduct_renamed hρ _ (c := concOf m.tables y)]
  · rfl
  · intro s
    unfold concOf
    unfold Dict.getD
    rw [hidx]

theorem kinetic_renamed (h : extractMechanism text = .ok m) (hq : Reads text m.equations.toNat qs)
    (h' : extractMechanism text' = .ok m') (hq' : Reads text' m'.equations.toNat (qs.map (renamed ρ))) (hρ : Renaming ρ)
    (hF : KineticSystem m qs A rates start h2o temp F)
    (hF' : KineticSystem m' (qs.map (renamed ρ)) A' rates' start h2o temp F')
    {a : RawEqn → Str → ℝ} (hA : ∀ s (e : ℕ) q, qs[e]? = some q → A s e = a q s)
    (hA' : ∀ s (e : ℕ) q, (qs.map (renamed ρ))[e]? = some q → A' s e = a q s)
    (ha : ∀ q s, a (renamed ρ q) (ρ s) = a q s) {K : Str → ℝ → ℝ → ℝ} (hK : RatesByText qs rates h2o temp K)
    (hK' : RatesByText (qs.map (renamed ρ)) rates' h2o temp K) : F' = F := by
  funext t y i
  obtain ⟨-, hidx⟩ := C110_places h hq h' hq' hρ
  obtain ⟨s, hs⟩ := (C01_indices h (i : ℕ)).2 (i.2.trans_eq hF.size)
  rw [hF.value s i hs, hF'.value (ρ s) i ((hidx s).trans hs)]
  exact kineticValue_renamed hρ hidx hA hA' ha hK hK' s t _

/-- **C110**: `dydt_func` of the Python version is the same function for both files. -/
theorem C110_system (h : extractMechanism text = .ok m) (hq : Reads text m.equations.toNat qs)
    (h' : extractMechanism text' = .ok m') (hq' : Reads text' m'.equations.toNat (qs.map (renamed ρ))) (hρ : Renaming ρ)
    (hF : GasSystem m rates start h2o temp F) (hF' : GasSystem m' rates' start h2o temp F')
    {K : Str → ℝ → ℝ → ℝ} (hK : RatesByText qs rates h2o temp K)
    (hK' : RatesByText (qs.map (renamed ρ)) rates' h2o temp K) : F' = F :=
  kinetic_renamed h hq h' hq' hρ (hF.kinetic h hq) (hF'.kinetic h' hq') (net_of h hq) (net_of h' hq') (netOf_renamed hρ) hK hK'

/-- **C110**: the same for the Fortran version, for any numbers of cores. -/
theorem C110_system_fortran (h : extractMechanism text = .ok m) (hq : Reads text m.equations.toNat qs)
    (h' : extractMechanism text' = .ok m') (hq' : Reads text' m'.equations.toNat (qs.map (renamed ρ))) (hρ : Renaming ρ)
    {cores cores' : Option ℕ} (hF : GasSystemF m cores rates start h2o temp F)
    (hF' : GasSystemF m' cores' rates' start h2o temp F')
    {K : Str → ℝ → ℝ → ℝ} (hK : RatesByText qs rates h2o temp K)
    (hK' : RatesByText (qs.map (renamed ρ)) rates' h2o temp K) : F' = F :=
  kinetic_renamed h hq h' hq' hρ (hF.kinetic h hq) (hF'.kinetic h' hq') (netF_of h hq) (netF_of h' hq') (netOfF_renamed hρ)
    hK hK'

/-- **C110**: `dydt_func` of the simulations with particles is the same function for both files. -/
theorem C110_system_aerosol (h : extractMechanism text = .ok m) (hq : Reads text m.equations.toNat qs)
    (h' : extractMechanism text' = .ok m') (hq' : Reads text' m'.equations.toNat (qs.map (renamed ρ))) (hρ : Renaming ρ)
    {cores cores' : Option ℕ} {L : Aerosol.Layout} {C : AeroConst} (hns : L.numSpecies = m.tables.species.length + 1)
    (hF : AerosolSystem m cores L C rates start h2o F) (hF' : AerosolSystem m' cores' L C rates' start h2o F')
    {K : Str → ℝ → ℝ → ℝ} (hK : RatesByText qs rates h2o C.temp K)
    (hK' : RatesByText (qs.map (renamed ρ)) rates' h2o C.temp K) : F' = F := by
  funext t y i
  obtain ⟨hlen, hidx⟩ := C110_places h hq h' hq' hρ
  obtain ⟨sp, hsp, -⟩ := index_sum h hq rfl
  obtain ⟨sp', hsp', -⟩ := index_sum h' hq' rfl
  rw [(hF.mixed h hq hns hsp).entry, (hF'.mixed h' hq' (hlen ▸ hns) hsp').entry]
  refine congrArg (· + _) ?_
  by_cases hi : (i : ℕ) < L.numSpecies - 1
  · rw [if_pos hi, if_pos hi]
    have hl : (i : ℕ) < m.tables.species.length := by omega
    have hl' : (i : ℕ) < m'.tables.species.length := by omega
    have hs := (hsp ⟨i, hl⟩ _).2 rfl
    have hs' := (hsp' ⟨i, hl'⟩ _).1 ((hidx _).trans hs)
    unfold gasPart
    rw [dif_pos hl, dif_pos hl', ← hs']
    exact kineticValue_renamed hρ hidx (netF_of h hq) (netF_of h' hq') (netOfF_renamed hρ) hK hK' _ t _
  · rw [if_neg hi, if_neg hi]

/-! ## From the texts of the generated files -/

variable {conv : ℕ} {num num' : ℚ → Str} {f f' : GasFiles} {junk junk' : Vals}

theorem readable_renamed {b : Backend} {convert : Str → Str} (hread : ReadableRates b convert qs) :
    ReadableRates b convert (qs.map (renamed ρ)) := fun q' hq' => by
  obtain ⟨q, hqm, rfl⟩ := List.mem_map.1 hq'
  exact hread q hqm

/-- **C110**, Python version: the functions given by the texts of the generated files are the same. -/
theorem C110_files_python (h : extractMechanism text = .ok m) (hq : Reads text m.equations.toNat qs)
    (h' : extractMechanism text' = .ok m') (hq' : Reads text' m'.equations.toNat (qs.map (renamed ρ))) (hρ : Renaming ρ)
    (hw : Prints num id m.tables) (hw' : Prints num' id m'.tables)
    (hf : f.WrittenPython m conv num) (hf' : f'.WrittenPython m' conv num')
    (hread : ReadableRates .numba ((convertOf .numba)^[conv]) qs)
    (hF : PythonSystem f m junk start h2o temp F) (hF' : PythonSystem f' m' junk' start h2o temp F') : F' = F := by
  obtain ⟨p, hp, -⟩ := C66_value h hq (b := .numba) (by decide) none hread
  obtain ⟨p', hp', -⟩ := C66_value h' hq' (b := .numba) (by decide) none (readable_renamed hread)
  exact C110_system h hq h' hq' hρ ((C73_system_python h hw hf (hf.rates ▸ hp)).1 hF)
    ((C73_system_python h' hw' hf' (hf'.rates ▸ hp')).1 hF') (generated_by_text h hq (by decide) hread hp _ h2o temp)
    (generated_by_text h' hq' (by decide) (readable_renamed hread) hp' _ h2o temp)

/-- **C110**, Fortran version. -/
theorem C110_files_fortran (h : extractMechanism text = .ok m) (hq : Reads text m.equations.toNat qs)
    (h' : extractMechanism text' = .ok m') (hq' : Reads text' m'.equations.toNat (qs.map (renamed ρ))) (hρ : Renaming ρ)
    (hw : Prints num id m.tables) (hw' : Prints num' id m'.tables) {cores cores' : Option ℕ}
    (hf : f.WrittenFortran m cores conv num) (hf' : f'.WrittenFortran m' cores' conv num')
    (hread : ReadableRates .fortran ((convertOf .fortran)^[conv]) qs)
    (hF : FortranSystem f m junk start h2o temp F) (hF' : FortranSystem f' m' junk' start h2o temp F') : F' = F := by
  obtain ⟨p, hp, -⟩ := C66_value h hq (b := .fortran) (by decide) cores hread
  obtain ⟨p', hp', -⟩ := C66_value h' hq' (b := .fortran) (by decide) cores' (readable_renamed hread)
  exact C110_system_fortran h hq h' hq' hρ ((C73_system_fortran h hw hf (hf.rates ▸ hp)).1 hF)
    ((C73_system_fortran h' hw' hf' (hf'.rates ▸ hp')).1 hF') (generated_by_text h hq (by decide) hread hp _ h2o temp)
    (generated_by_text h' hq' (by decide) (readable_renamed hread) hp' _ h2o temp)

/-- **C110**, simulations with particles: the functions given by the texts of the generated files are the same, for any
machines. -/
theorem C110_files_aerosol (h : extractMechanism text = .ok m) (hq : Reads text m.equations.toNat qs)
    (h' : extractMechanism text' = .ok m') (hq' : Reads text' m'.equations.toNat (qs.map (renamed ρ))) (hρ : Renaming ρ)
    {cores cores' : Option ℕ} {L : Aerosol.Layout} {C : AeroConst} (hns : L.numSpecies = m.tables.species.length + 1)
    (hL : GoodLayout L) (hc : 1 ≤ L.numCond) (hw : Prints num id m.tables) (hw' : Prints num' id m'.tables)
    {g g' : AeroFiles} (hf : g.WrittenFor m cores conv num L) (hf' : g'.WrittenFor m' cores' conv num' L)
    (hread : ReadableRates .fortran ((convertOf .fortran)^[conv]) qs)
    {M M' : ℝ → (ℕ → ℝ) → Machine L} (hM : ∀ t y, (M t y).Orderly) (hM' : ∀ t y, (M' t y).Orderly)
    (hF : FileSystem g m L C junk M start h2o F) (hF' : FileSystem g' m' L C junk' M' start h2o F') : F' = F := by
  obtain ⟨p, hp, -⟩ := C66_value h hq (b := .fortran) (by decide) cores hread
  obtain ⟨p', hp', -⟩ := C66_value h' hq' (b := .fortran) (by decide) cores' (readable_renamed hread)
  exact C110_system_aerosol h hq h' hq' hρ hns ((C72_system h hw hL hc hf (hf.rates ▸ hp) hM).1 hF)
    ((C72_system h' hw' hL hc hf' (hf'.rates ▸ hp') hM').1 hF')
    (generated_by_text h hq (by decide) hread hp _ h2o C.temp)
    (generated_by_text h' hq' (by decide) (readable_renamed hread) hp' _ h2o C.temp)

/-- **C110**: two simulations with exact solvers report the same rows. -/
theorem C110_rows_python (h : extractMechanism text = .ok m) (hq : Reads text m.equations.toNat qs)
    (h' : extractMechanism text' = .ok m') (hq' : Reads text' m'.equations.toNat (qs.map (renamed ρ))) (hρ : Renaming ρ)
    (hpos : ∀ q ∈ qs, ∀ p ∈ chemReactants q ++ chemProducts q, 0 < p.1) (hone : WholeReactants qs)
    (hw : Prints num id m.tables) (hw' : Prints num' id m'.tables)
    (hf : f.WrittenPython m conv num) (hf' : f'.WrittenPython m' conv num')
    (hread : ReadableRates .numba ((convertOf .numba)^[conv]) qs)
    (hnn : NonnegRates .numba ((convertOf .numba)^[conv]) qs h2o temp)
    (hF : PythonSystem f m junk start h2o temp F) (hF' : PythonSystem f' m' junk' start h2o temp F')
    {solve solve' : (Fin n → ℝ) → ℚ → Fin n → ℝ} {sim batch : ℚ} {zero zero' y0 : Fin n → ℝ}
    {times times' : List ℚ} {rows rows' : List (Fin n → ℝ)} (hs : 0 < sim) (hb : 0 < batch) (hy0 : ∀ i, 0 ≤ y0 i)
    (hrun : runSimulation id solve zero y0 sim batch = .ok (times, rows))
    (hrun' : runSimulation id solve' zero' y0 sim batch = .ok (times', rows'))
    (hex : ExactBatches F solve batch y0 rows.length) (hex' : ExactBatches F' solve' batch y0 rows'.length) :
    times = times' ∧ rows' = rows := by
  obtain rfl := C110_files_python h hq h' hq' hρ hw hw' hf hf' hread hF hF'
  obtain ⟨p, hp, -⟩ := C66_value h hq (b := .numba) (by decide) none hread
  have hG := ((C73_system_python h hw hf (hf.rates ▸ hp)).1 hF).congr h hq
    (rates' := generatedRates .numba p fun _ => 0) fun t r e he => by
      rw [generated_textRate h hq (by decide) hread hp junk temp _ _ h2o he,
        generated_textRate h hq (by decide) hread hp (fun _ => 0) temp _ _ h2o he]
  have hk := hG.kinetic h hq
  have hr := C66_piecewise h hq (by decide) hread hp (junk := fun _ => 0) (fun _ => le_refl _) start hnn
  obtain ⟨h1, h2⟩ := (hk.tame h (recorded_loss_only h hq hpos).1 (left_pos hpos) hone hr.regular).rows_renamed
    (hk.boxPieces h hone hr) (Equiv.refl _) (fun _ _ => rfl) hs hb hy0 hrun hrun' hex hex'
  exact ⟨h1, h2.trans (List.map_id _)⟩

/-- **C110**: the same for simulations with particles. -/
theorem C110_rows_aerosol (h : extractMechanism text = .ok m) (hq : Reads text m.equations.toNat qs)
    (h' : extractMechanism text' = .ok m') (hq' : Reads text' m'.equations.toNat (qs.map (renamed ρ))) (hρ : Renaming ρ)
    (hpos : ∀ q ∈ qs, ∀ p ∈ chemReactants q ++ chemProducts q, 0 < p.1) (hone : WholeReactants qs)
    {cores cores' : Option ℕ} {L : Aerosol.Layout} {C : AeroConst} (hns : L.numSpecies = m.tables.species.length + 1)
    (hL : GoodLayout L) (hc : 1 ≤ L.numCond) (hC : PhysConst L C) (hw : Prints num id m.tables)
    (hw' : Prints num' id m'.tables)
    {g g' : AeroFiles} (hf : g.WrittenFor m cores conv num L) (hf' : g'.WrittenFor m' cores' conv num' L)
    (hread : ReadableRates .fortran ((convertOf .fortran)^[conv]) qs)
    (hnn : NonnegRates .fortran ((convertOf .fortran)^[conv]) qs h2o C.temp)
    {M M' : ℝ → (ℕ → ℝ) → Machine L} (hM : ∀ t y, (M t y).Orderly) (hM' : ∀ t y, (M' t y).Orderly)
    (hF : FileSystem g m L C junk M start h2o F) (hF' : FileSystem g' m' L C junk' M' start h2o F')
    {solve solve' : (Fin n → ℝ) → ℚ → Fin n → ℝ} {sim batch : ℚ} {zero zero' y0 : Fin n → ℝ}
    {times times' : List ℚ} {rows rows' : List (Fin n → ℝ)} (hs : 0 < sim) (hb : 0 < batch) (hy0 : ∀ i, 0 ≤ y0 i)
    (hrun : runSimulation id solve zero y0 sim batch = .ok (times, rows))
    (hrun' : runSimulation id solve' zero' y0 sim batch = .ok (times', rows'))
    (hex : ExactBatches F solve batch y0 rows.length) (hex' : ExactBatches F' solve' batch y0 rows'.length) :
    times = times' ∧ rows' = rows := by
  obtain rfl := C110_files_aerosol h hq h' hq' hρ hns hL hc hw hw' hf hf' hread hM hM' hF hF'
  obtain ⟨p, hp, -⟩ := C66_value h hq (b := .fortran) (by decide) cores hread
  have hA := ((C72_system h hw hL hc hf (hf.rates ▸ hp) hM).1 hF).congr h hq hns
    (rates' := generatedRates .fortran p fun _ => 0) fun t r e he =>
      fortran_rates_eq h hq hread hp hp junk (fun _ => 0) t r h2o C.temp he
  have hr := C66_piecewise h hq (by decide) hread hp (junk := fun _ => 0) (fun _ => le_refl _) start hnn
  obtain ⟨h1, h2⟩ := (hA.tame h hq hns hL hC hpos hone hr.regular).rows_renamed
    (hA.boxPieces h hq hns hL hC hone hr) (Equiv.refl _) (fun _ _ => rfl) hs hb hy0 hrun hrun' hex hex'
  exact ⟨h1, h2.trans (List.map_id _)⟩

/-- **C110**: the same for the Fortran version. -/
theorem C110_rows_fortran (h : extractMechanism text = .ok m) (hq : Reads text m.equations.toNat qs)
    (h' : extractMechanism text' = .ok m') (hq' : Reads text' m'.equations.toNat (qs.map (renamed ρ))) (hρ : Renaming ρ)
    (hpos : ∀ q ∈ qs, ∀ p ∈ chemReactants q ++ chemProducts q, 0 < p.1) (hone : WholeReactants qs)
    (hw : Prints num id m.tables) (hw' : Prints num' id m'.tables) {cores cores' : Option ℕ}
    (hf : f.WrittenFortran m cores conv num) (hf' : f'.WrittenFortran m' cores' conv num')
    (hread : ReadableRates .fortran ((convertOf .fortran)^[conv]) qs)
    (hnn : NonnegRates .fortran ((convertOf .fortran)^[conv]) qs h2o temp)
    (hF : FortranSystem f m junk start h2o temp F) (hF' : FortranSystem f' m' junk' start h2o temp F')
    {solve solve' : (Fin n → ℝ) → ℚ → Fin n → ℝ} {sim batch : ℚ} {zero zero' y0 : Fin n → ℝ}
    {times times' : List ℚ} {rows rows' : List (Fin n → ℝ)} (hs : 0 < sim) (hb : 0 < batch) (hy0 : ∀ i, 0 ≤ y0 i)
    (hrun : runSimulation id solve zero y0 sim batch = .ok (times, rows))
    (hrun' : runSimulation id solve' zero' y0 sim batch = .ok (times', rows'))
    (hex : ExactBatches F solve batch y0 rows.length) (hex' : ExactBatches F' solve' batch y0 rows'.length) :
    times = times' ∧ rows' = rows := by
  obtain rfl := C110_files_fortran h hq h' hq' hρ hw hw' hf hf' hread hF hF'
  obtain ⟨p, hp, -⟩ := C66_value h hq (b := .fortran) (by decide) cores hread
  have hG := GasSystemF.congr (hF := (C73_system_fortran h hw hf (hf.rates ▸ hp)).1 hF) h hq
    (rates' := generatedRates .fortran p fun _ => 0) fun t r e he =>
      fortran_rates_eq h hq hread hp hp junk (fun _ => 0) t r h2o temp he
  have hk := hG.kinetic h hq
  have hr := C66_piecewise h hq (by decide) hread hp (junk := fun _ => 0) (fun _ => le_refl _) start hnn
  obtain ⟨h1, h2⟩ := (hk.tame h (recorded_loss_only h hq hpos).2 (left_pos hpos) hone hr.regular).rows_renamed
    (hk.boxPieces h hone hr) (Equiv.refl _) (fun _ _ => rfl) hs hb hy0 hrun hrun' hex hex'
  exact ⟨h1, h2.trans (List.map_id _)⟩

end

/-! ## A case the theorems apply to -/

theorem swap_renaming {a b : Str} (ha : a ≠ [] ∧ a ≠ hv) (hb : b ≠ [] ∧ b ≠ hv) (hh : a ∈ heldConstant ↔ b ∈ heldConstant)
    (hr : a ∈ ro2Names ↔ b ∈ ro2Names) : Renaming (Equiv.swap a b) := by
  have key : ∀ {l : List Str}, (a ∈ l ↔ b ∈ l) → ∀ s, Equiv.swap a b s ∈ l ↔ s ∈ l := by
    intro l hl s
    by_cases h1 : s = a
    · rw [h1, Equiv.swap_apply_left, hl]
    by_cases h2 : s = b
    · rw [h2, Equiv.swap_apply_right, hl]
    rw [Equiv.swap_apply_of_ne_of_ne h1 h2]
  exact ⟨(Equiv.swap a b).injective, Equiv.swap_apply_of_ne_of_ne ha.1.symm hb.1.symm,
    Equiv.swap_apply_of_ne_of_ne ha.2.symm hb.2.symm, key hh, key hr⟩

/-- New names for the peroxy radical and nitrogen dioxide. -/
def newName : Str → Str :=
  Equiv.swap "CH3O2".toList "C2H5O2".toList ∘ Equiv.swap "NO2".toList "X".toList

theorem newName_renaming : Renaming newName := by
  have h1 : Renaming (Equiv.swap "CH3O2".toList "C2H5O2".toList) := swap_renaming (by decide +kernel) (by decide +kernel)
    (by decide +kernel) (by decide +kernel)
  have h2 : Renaming (Equiv.swap "NO2".toList "X".toList) := swap_renaming (by decide +kernel) (by decide +kernel)
    (by decide +kernel) (by decide +kernel)
  unfold newName
  exact ⟨h1.injective.comp h2.injective, (congrArg _ h2.empty).trans h1.empty, (congrArg _ h2.photon).trans h1.photon,
    fun s => (h1.held _).trans (h2.held s), fun s => (h1.radicals _).trans (h2.radicals s)⟩

/-- `radicalText` with these names. -/
def renamedText : Str := "{1.}C2H5O2+NO=HCHO+X:2.30D-12*EXP(360/TEMP);{2.}X=NO+O:J(4);".toList

def renamedReactions : List RawEqn := radicalReactions.map (renamed newName)

theorem renamed_parses : extractMechanism renamedText = .ok { tables := build renamedReactions, equations := 2 } := by
  rw [extract_ok_iff]
  refine ⟨"2.".toList, 2, renamedReactions, ?_, by decide +kernel, ?_, rfl⟩
  · rw [labels_eq _ (not_mem_removeChar _ _)]; decide +kernel
  · rw [bodies_eq _ (not_mem_removeChar _ _)]; decide +kernel

theorem renamed_reads : Reads renamedText 2 renamedReactions := by
  unfold Reads bodyTexts; decide +kernel

/-- All hypotheses are met: one function is `dydt_func` for `radicalText` and for `renamedText`, with the rate coefficients of
the generated files of each. -/
theorem renamed_system (start h2o temp : ℝ) : ∃ (p p' : List Stmt) (F : ℝ → (Fin 5 → ℝ) → Fin 5 → ℝ),
    program .numba (ratesFile .numba none ((convertTable (convertOf .numba))^[1] (build radicalReactions).rate)) = some p ∧
    program .numba (ratesFile .numba none ((convertTable (convertOf .numba))^[1] (build renamedReactions).rate)) = some p' ∧
    GasSystem ⟨build radicalReactions, 2⟩ (generatedRates .numba p fun _ => 0) start h2o temp F ∧
    GasSystem ⟨build renamedReactions, 2⟩ (generatedRates .numba p' fun _ => 0) start h2o temp F := by
  have hc : ∀ q ∈ radicalReactions, rateTextCheck .numba ((convertOf .numba)^[1] q.rate) = true := by decide +kernel
  obtain ⟨r1, -⟩ := rateTextCheck_reads hc
  have r1' := readable_renamed (ρ := newName) r1
  obtain ⟨p, hp, -⟩ := C66_value radical_parses radical_reads (b := .numba) (by decide) none r1
  obtain ⟨p', hp', -⟩ := C66_value renamed_parses renamed_reads (b := .numba) (by decide) none r1'
  obtain ⟨F, hF⟩ := radical_system (generatedRates .numba p fun _ => 0) start h2o temp
  have hreg : ∀ q ∈ renamedReactions, Regular q := by
    have h : ∀ q ∈ renamedReactions, chemReactants q ≠ [] ∧ (names (chemReactants q)).Nodup ∧
        GainGood q := by decide +kernel
    exact fun q hq => ⟨(h q hq).1, (h q hq).2.1, (h q hq).2.2⟩
  obtain ⟨F', hF'⟩ : ∃ F : ℝ → (Fin 5 → ℝ) → Fin 5 → ℝ,
      GasSystem ⟨build renamedReactions, 2⟩ (generatedRates .numba p' fun _ => 0) start h2o temp F := by
    have := fun time => C55_kinetics_partial renamed_parses renamed_reads hreg ⟨"C2H5O2".toList, by decide +kernel⟩
      (by decide +kernel) (generatedRates .numba p' fun _ => 0) start h2o temp time
    choose f hf using this
    exact ⟨fun t y i => f t (stateOf y) i, by decide +kernel, fun t y => ⟨_, (hf t _).1, fun _ => rfl⟩⟩
  obtain rfl := C110_system radical_parses radical_reads renamed_parses renamed_reads newName_renaming hF hF'
    (generated_by_text radical_parses radical_reads (by decide) r1 hp _ h2o temp)
    (generated_by_text renamed_parses renamed_reads (by decide) r1' hp' _ h2o temp)
  exact ⟨p, p', F', hp, hp', hF, hF'⟩

end PyBox
