import Verif.Aerosol.Rhs
import Verif.Props.Properties

/-!
# C57, C58: the right-hand side of a simulation with particles
-/

namespace PyBox

open Spec Aerosol

/-! ## The gas chemistry of the Fortran versions -/

/-- Value of the gas routines of the Fortran versions for every species that is not held constant,
whatever the output arrays held. Only reactions with a chemical reactant are assigned a product; the
others keep the contents `a` of the array. -/
theorem gasRhsF_value {text : Str} {m : Mechanism} (h : extractMechanism text = .ok m)
    {qs : List RawEqn} (hq : Reads text m.equations.toNat qs) {n : ℕ} {cores : Option ℕ}
    {a b k y out : ℕ → ℝ}
    (hrun : gasRhsF m.tables m.equations.toNat n cores a b k y = some out) {s : Str} {i : ℕ}
    (hs : m.tables.index.get? s = some i) (hx : s ∉ heldConstant) :
    out i = ∑ e ∈ Finset.range qs.length,
      ((offByOne (cell m.tables.gain s e) : ℝ) - (offByOne (cell m.tables.loss s e) : ℝ)) *
        ((match qs[e]? with
          | some q => if chemReactants q = [] then a e else
              ((names (chemReactants q)).map (fun n =>
                concOf m.tables y n ^ (coef (chemReactants q) n : ℝ))).prod
          | none => 0) * k e) := by
  obtain ⟨P, hP, hex⟩ := C10_value h hq
  obtain ⟨F, hF, hsame⟩ := (C11_same_programs m.tables.gen m.equations.toNat cores).2 P hP
  obtain ⟨f, hf, hval, -⟩ := hex ⟨y, fun _ => 0⟩ (concOf m.tables y) a (concOf_holds m.tables y)
  unfold gasRhsF at hrun
  rw [hF] at hrun
  dsimp only at hrun
  rw [hsame, hf, Option.bind_some] at hrun
  obtain ⟨-, h3⟩ := extract_tables h hq
  rw [C13_value h hrun hs hx, ← h3]
  apply Finset.sum_congr rfl
  intro e he
  have hlt := Finset.mem_range.1 he
  have hqe : qs[e]? = some qs[e] := List.getElem?_eq_getElem hlt
  rw [hqe]
  dsimp only
  rw [hval e _ hqe]

/-- All other entries keep their contents. -/
theorem gasRhsF_other {text : Str} {m : Mechanism} (h : extractMechanism text = .ok m)
    {n : ℕ} {cores : Option ℕ} {a b k y out : ℕ → ℝ}
    (hrun : gasRhsF m.tables m.equations.toNat n cores a b k y = some out) {i : ℕ}
    (hi : ∀ s, m.tables.index.get? s = some i → s ∈ heldConstant) : out i = b i := by
  obtain ⟨qs, hq, h2, h3⟩ := extract_reads h
  obtain ⟨P, hP, hex⟩ := C10_value h hq
  obtain ⟨F, hF, hsame⟩ := (C11_same_programs m.tables.gen m.equations.toNat cores).2 P hP
  obtain ⟨f, hf, -⟩ := hex ⟨y, fun _ => 0⟩ (concOf m.tables y) a (concOf_holds m.tables y)
  unfold gasRhsF at hrun
  rw [hF] at hrun
  dsimp only at hrun
  rw [hsame, hf, Option.bind_some] at hrun
  rw [h2] at hrun hi
  exact untouchedF hrun hi

theorem gasRhsF_isSome {text : Str} {m : Mechanism} (h : extractMechanism text = .ok m)
    (n : ℕ) (cores : Option ℕ) (a b k y : ℕ → ℝ) :
    (gasRhsF m.tables m.equations.toNat n cores a b k y).isSome ↔
      ∀ s i, m.tables.index.get? s = some i → s ∉ heldConstant →
        ∃ e, cell m.tables.gain s e ≠ none ∨ cell m.tables.loss s e ≠ none := by
  obtain ⟨qs, hq, h2, h3⟩ := extract_reads h
  obtain ⟨P, hP, hex⟩ := C10_value h hq
  obtain ⟨F, hF, hsame⟩ := (C11_same_programs m.tables.gen m.equations.toNat cores).2 P hP
  obtain ⟨f, hf, -⟩ := hex ⟨y, fun _ => 0⟩ (concOf m.tables y) a (concOf_holds m.tables y)
  unfold gasRhsF
  rw [hF]
  dsimp only
  rw [hsame, hf, Option.bind_some, C18_valid_iff_fortran h]

/-- The gas routines read only the entries of the species. -/
theorem gasRhsF_congr {text : Str} {m : Mechanism} (h : extractMechanism text = .ok m)
    (n : ℕ) (cores : Option ℕ) (a b k : ℕ → ℝ) {y y' : ℕ → ℝ}
    (hy : ∀ i < m.tables.species.length, y i = y' i) :
    gasRhsF m.tables m.equations.toNat n cores a b k y
      = gasRhsF m.tables m.equations.toNat n cores a b k y' := by
  have hiff := (gasRhsF_isSome h n cores a b k y).trans (gasRhsF_isSome h n cores a b k y').symm
  cases h1 : gasRhsF m.tables m.equations.toNat n cores a b k y with
  | none =>
    cases h2 : gasRhsF m.tables m.equations.toNat n cores a b k y' with
    | none => rfl
    | some o => rw [h1, h2] at hiff; simp at hiff
  | some o =>
    cases h2 : gasRhsF m.tables m.equations.toNat n cores a b k y' with
    | none => rw [h1, h2] at hiff; simp at hiff
    | some o' =>
      congr 1
      funext i
      by_cases hi : ∀ s, m.tables.index.get? s = some i → s ∈ heldConstant
      · rw [gasRhsF_other h h1 hi, gasRhsF_other h h2 hi]
      · push Not at hi
        obtain ⟨s, hs, hx⟩ := hi
        obtain ⟨qs, hq, -, -⟩ := extract_reads h
        rw [gasRhsF_value h hq h1 hs hx, gasRhsF_value h hq h2 hs hx]
        have hpos : 0 < m.tables.species.length := by
          have := (C01_indices h i).1 ⟨s, hs⟩
          omega
        have hc : concOf m.tables y = concOf m.tables y' := by
          funext r
          unfold concOf
          apply hy
          cases hr : m.tables.index.get? r with
          | none => unfold Dict.getD; rw [hr]; exact hpos
          | some j => rw [getD_of_get? hr]; exact (C01_indices h j).1 ⟨r, hr⟩
        rw [hc]

/-! ## C57 -/

namespace Spec

/-- C57 for one value `out` of the right-hand side: `gas` is what the gas simulation would give for
the same concentrations. -/
structure Coupled (L : Aerosol.Layout) (gas out : ℕ → ℝ) : Prop where
  /-- species that do not condense only react -/
  stays : ∀ s, s < L.numSpecies - 1 → s ∉ L.incl → out s = gas s
  /-- condensing species: what chemistry makes is shared between the gas and the bins -/
  shared : ∀ j s, L.incl[j]? = some s → s < L.numSpecies - 1 →
    out s + ∑ b ∈ Finset.range L.numBins, out (L.numSpecies + b * L.numCond + j) = gas s
  /-- water is only exchanged -/
  water : ∀ j, L.incl[j]? = some (L.numSpecies - 1) →
    out (L.numSpecies - 1) + ∑ b ∈ Finset.range L.numBins, out (L.numSpecies + b * L.numCond + j)
      = 0
  /-- all matter: only chemistry changes the total -/
  total : ∑ i ∈ Finset.range (L.numSpecies + L.numBins * L.numCond), out i
    = ∑ s ∈ Finset.range (L.numSpecies - 1), gas s
  /-- particle entries do not react -/
  condensed : ∀ i, L.numSpecies + L.numBins * L.numCond ≤ i → out i = 0

end Spec

theorem slot_lt {nb nc ns b j : ℕ} (hb : b < nb) (hj : j < nc) :
    ns + b * nc + j < ns + nc * nb := by
  have : (b + 1) * nc ≤ nb * nc := Nat.mul_le_mul_right _ hb
  rw [Nat.add_mul, Nat.one_mul] at this
  rw [Nat.mul_comm nc nb]
  omega

theorem addUp_coupled {L : Aerosol.Layout} (hL : GoodLayout L) (gas : ℕ → ℝ) (P : PartInput) :
    Coupled L gas (addUp L gas (partition L P)) := by
  have hslot : ∀ b j, b < L.numBins → j < L.numCond →
      addUp L gas (partition L P) (L.numSpecies + b * L.numCond + j)
        = partition L P (L.numSpecies + b * L.numCond + j) := by
    intro b j hb hj
    unfold addUp
    rw [if_neg (by omega), if_pos (slot_lt hb hj), zero_add]
  have hgas : ∀ s, s < L.numSpecies → addUp L gas (partition L P) s
      = (if s < L.numSpecies - 1 then gas s else 0) + partition L P s := by
    intro s hs
    unfold addUp
    congr 1
    rw [if_pos (by omega)]
  have hex : ∀ j s, L.incl[j]? = some s →
      partition L P s + ∑ b ∈ Finset.range L.numBins,
        addUp L gas (partition L P) (L.numSpecies + b * L.numCond + j) = 0 := by
    intro j s hjs
    obtain ⟨hj, rfl⟩ := List.getElem?_eq_some_iff.1 hjs
    rw [C36_exchange L P hL j hj]
    rw [Finset.sum_congr rfl (fun b hb => hslot b j (Finset.mem_range.1 hb) (hL.len ▸ hj))]
    ring
  refine ⟨?_, ?_, ?_, ?_, ?_⟩
  · intro s hs hn
    rw [hgas s (by omega), if_pos hs, C37_excluded L P s (by omega) hn, add_zero]
  · intro j s hjs hs
    rw [hgas s (by omega), if_pos hs, add_assoc, hex j s hjs, add_zero]
  · intro j hjs
    have hlt : L.numSpecies - 1 < L.numSpecies := hL.valid _ (List.mem_of_getElem? hjs)
    rw [hgas _ hlt, if_neg (lt_irrefl _), zero_add, hex j _ hjs]
  · unfold addUp
    rw [Finset.sum_add_distrib]
    have h1 : ∑ i ∈ Finset.range (L.numSpecies + L.numBins * L.numCond),
        (if i < L.numSpecies - 1 then gas i else 0) = ∑ s ∈ Finset.range (L.numSpecies - 1), gas s := by
      rw [← Finset.sum_filter]
      congr 1
      ext i
      simp only [Finset.mem_filter, Finset.mem_range]
      omega
    have h2 : ∑ i ∈ Finset.range (L.numSpecies + L.numBins * L.numCond),
        (if i < L.numSpecies + L.numCond * L.numBins then partition L P i else 0) = 0 := by
      rw [← C36_total L P hL]
      apply Finset.sum_congr rfl
      intro i hi
      have := Finset.mem_range.1 hi
      rw [if_pos (by rw [Nat.mul_comm L.numCond]; exact this)]
    rw [h1, h2, add_zero]
  · intro i hi
    unfold addUp
    rw [if_neg (by omega), if_neg (by rw [Nat.mul_comm L.numCond]; omega), add_zero]

/-- C57: for every mechanism and every state, the right-hand side of the simulation with particles
adds to the right-hand side of the gas simulation only an exchange between the gas and the bins. -/
theorem C57_coupled {text : Str} {m : Mechanism} (h : extractMechanism text = .ok m)
    (cores : Option ℕ) {L : Aerosol.Layout} (hL : GoodLayout L)
    (hns : L.numSpecies = m.tables.species.length + 1) (C : AeroConst) (rates : Rates)
    (start h2o time : ℝ) (y : ℕ → ℝ) {out : ℕ → ℝ}
    (hrun : aerosolRhs m.tables m.equations.toNat cores L C (ro2Indices m.tables.index) rates start
      h2o time y = some out) :
    ∃ gas, dydtFuncF m.tables m.equations.toNat m.tables.species.length cores
        (ro2Indices m.tables.index) rates start h2o C.temp time y = some gas ∧ Coupled L gas out := by
  unfold aerosolRhs at hrun
  unfold dydtFuncF
  cases hr : ro2Total (ro2Indices m.tables.index) y with
  | none => rw [hr] at hrun; cases hrun
  | some ro2 =>
    rw [hr, Option.bind_some] at hrun
    rw [Option.bind_some]
    have hc := gasRhsF_congr h m.tables.species.length cores (fun _ => 0) (fun _ => 0)
      (rates (start + time) ro2 h2o C.temp)
      (y := firstEntries (L.numSpecies - 1) y) (y' := y) (fun i hi => by
        unfold firstEntries
        rw [if_pos (by omega)])
    rw [← hc]
    have hns' : L.numSpecies - 1 = m.tables.species.length := by omega
    rw [hns'] at hrun ⊢
    obtain ⟨gas, hgas, rfl⟩ := Option.map_eq_some_iff.1 hrun
    exact ⟨gas, hgas, addUp_coupled hL gas _⟩

/-- C57: it is defined exactly when the right-hand side of the gas simulation is. -/
theorem C57_defined {text : Str} {m : Mechanism} (h : extractMechanism text = .ok m)
    (cores : Option ℕ) (L : Aerosol.Layout) (hns : L.numSpecies = m.tables.species.length + 1)
    (C : AeroConst) (rates : Rates) (start h2o time : ℝ) (y : ℕ → ℝ) :
    (aerosolRhs m.tables m.equations.toNat cores L C (ro2Indices m.tables.index) rates start
      h2o time y).isSome ↔
    (dydtFuncF m.tables m.equations.toNat m.tables.species.length cores
        (ro2Indices m.tables.index) rates start h2o C.temp time y).isSome := by
  unfold aerosolRhs dydtFuncF
  cases hr : ro2Total (ro2Indices m.tables.index) y with
  | none => rfl
  | some ro2 =>
    rw [Option.bind_some, Option.bind_some, Option.isSome_map]
    rw [gasRhsF_congr h _ cores (fun _ => 0) (fun _ => 0) (rates (start + time) ro2 h2o C.temp)
      (y := firstEntries (L.numSpecies - 1) y) (y' := y) (fun i hi => by
        unfold firstEntries
        rw [if_pos (by omega)])]
    have hns' : L.numSpecies - 1 = m.tables.species.length := by omega
    rw [hns']

/-- C57 for the fixed yield model: only exchange. -/
theorem C57_fixed_yield {L : Aerosol.Layout} (hL : GoodLayout L) (C : AeroConst) (y : ℕ → ℝ) :
    Coupled L (fun _ => 0) (fixedYieldRhs L C y) :=
  addUp_coupled hL _ _

/-- C57: the exchange of species `j` with bin `b` is the transfer law of C39 with the gas
concentration of that species in the state, its saturation vapour pressure, and for water (the last
one) the saturation vapour pressure at the temperature of the simulation. -/
theorem C57_rate {L : Aerosol.Layout} (hL : GoodLayout L) (C : AeroConst) (gas y : ℕ → ℝ) {b j s : ℕ}
    (hb : b < L.numBins) (hjs : L.incl[j]? = some s) {P : PartInput} (hP : P = partArgs L C y)
    (hphys : Physical L P b) {r : ℝ} (hr : IsRadius L P b r) :
    addUp L gas (partition L P) (L.numSpecies + b * L.numCond + j)
        = 4 * fPi * (r * 100) * C.nPerBin b * C.dStar j * fuchs (C.gamma j / r) (C.alpha j)
          * (y s - equilibrium L P b j r) ∧
      P.psat (j + 1) = (if j + 1 = L.numCond then satVapWater C.temp * 0.00000986923
        else (10 : ℝ) ^ C.satVp j) := by
  obtain ⟨hj, hs⟩ := List.getElem?_eq_some_iff.1 hjs
  have hj' : j < L.numCond := hL.len ▸ hj
  constructor
  · unfold addUp
    rw [if_neg (by omega), if_pos (slot_lt hb hj'), zero_add, C39_rate L P b j hb hj' hphys r hr]
    have hc : P.cgas (j + 1) = y s := by
      rw [hP]
      simp only [partArgs, Nat.add_sub_cancel]
      rw [List.getD_eq_getElem?_getD, hjs]
      rfl
    rw [hc]
    subst hP
    simp only [partArgs, Nat.add_sub_cancel]
  · rw [hP]
    simp only [partArgs, Nat.add_sub_cancel, psatAtm]
    have hpos : 0 < satVapWater C.temp * 0.00000986923 :=
      mul_pos (Real.exp_pos _) (by norm_num)
    split
    · exact Real.rpow_logb (by norm_num) (by norm_num) hpos
    · rfl

/-! ## C58: the relative humidity reported -/

/-- C58 as stated: when the water of a bin neither condenses nor evaporates, the reported relative
humidity is the water activity of the bin times the Kelvin factor of its particles. -/
def C58_Statement : Prop :=
  ∀ (L : Aerosol.Layout) (C : AeroConst) (y : ℕ → ℝ) (b : ℕ) (r : ℝ), GoodLayout L →
    L.incl.getLast? = some (L.numSpecies - 1) → 0 < C.temp → b < L.numBins →
    Physical L (partArgs L C y) b → IsRadius L (partArgs L C y) b r →
    fixedYieldRhs L C y (L.numSpecies + b * L.numCond + (L.numCond - 1)) = 0 →
    reportedRH L C y = waterActivity L (partArgs L C y) (b + 1)
      * Real.exp (4 * (C.mw (L.numCond - 1) / 1000) * C.sigma /
        (C.rGas * C.temp * (2 * r) * (binMass L (partArgs L C y) b / binVolume L (partArgs L C y) b)))

/-- Water activity and Kelvin factor of a bin: the relative humidity its water is in equilibrium
with. -/
noncomputable def Spec.humidityOf (L : Aerosol.Layout) (C : AeroConst) (y : ℕ → ℝ) (b : ℕ) (r : ℝ) : ℝ :=
  waterActivity L (partArgs L C y) (b + 1)
    * Real.exp (4 * (C.mw (L.numCond - 1) / 1000) * C.sigma /
      (C.rGas * C.temp * (2 * r) * (binMass L (partArgs L C y) b / binVolume L (partArgs L C y) b)))

theorem psat_water_pos (L : Aerosol.Layout) (C : AeroConst) (j : ℕ) : 0 < psatAtm L C j :=
  Real.rpow_pos_of_pos (by norm_num) _

/-- C58, exactly: the water of a bin neither condenses nor evaporates if and only if the reported
relative humidity is 8.314/8.3144598 times the one the bin is in equilibrium with. The two gas constants
are those of `dydt_func` and of the partitioning routine. -/
theorem C58_exact (L : Aerosol.Layout) (C : AeroConst) (gas y : ℕ → ℝ) (b : ℕ) (r : ℝ) (hL : GoodLayout L)
    (hw : L.incl.getLast? = some (L.numSpecies - 1)) (hT : 0 < C.temp) (hb : b < L.numBins)
    (hphys : Physical L (partArgs L C y) b) (hr : IsRadius L (partArgs L C y) b r) :
    addUp L gas (partition L (partArgs L C y)) (L.numSpecies + b * L.numCond + (L.numCond - 1)) = 0 ↔
      reportedRH L C y = 8.314 / 8.3144598 * humidityOf L C y b r := by
  have hne : L.incl ≠ [] := by rintro hn; rw [hn] at hw; cases hw
  have hpos : 0 < L.numCond := by rw [← hL.len]; exact List.length_pos_of_ne_nil hne
  have hj : L.numCond - 1 < L.numCond := by omega
  have hjs : L.incl[L.numCond - 1]? = some (L.numSpecies - 1) := by
    rw [← hL.len, ← List.getLast?_eq_getElem?]; exact hw
  have h1 : addUp L gas (partition L (partArgs L C y)) (L.numSpecies + b * L.numCond + (L.numCond - 1))
      = partition L (partArgs L C y) (L.numSpecies + b * L.numCond + (L.numCond - 1)) := by
    unfold addUp
    rw [if_neg (by omega), if_pos (slot_lt hb hj), zero_add]
  rw [h1, (C39_driven L _ b _ hb hj hphys r hr).2.2]
  have hc : (partArgs L C y).cgas (L.numCond - 1 + 1) = y (L.numSpecies - 1) := by
    simp only [partArgs, Nat.add_sub_cancel]
    rw [List.getD_eq_getElem?_getD, hjs]
    rfl
  rw [hc]
  have haw : waterActivity L (partArgs L C y) (b + 1)
      = conc L (partArgs L C y) b (L.numCond - 1) /
        (∑ k ∈ Finset.range L.numCond, conc L (partArgs L C y) b k
          + (partArgs L C y).ycore (b + 1) * (partArgs L C y).coreDiss) := by
    unfold waterActivity
    rw [totalMoles_eq]
    congr 1
    have := tempArray_eq L (partArgs L C y) b (L.numCond - 1)
    rw [Nat.sub_add_cancel hpos] at this
    exact this
  have heq : equilibrium L (partArgs L C y) b (L.numCond - 1) r
      = humidityOf L C y b r * (psatAtm L C (L.numCond - 1) * 101325) * C.na / (8.3144598e6 * C.temp) := by
    unfold equilibrium humidityOf
    rw [haw]
    simp only [partArgs, Nat.add_sub_cancel]
    ring
  rw [heq]
  have hna : 0 < C.na := hphys.na
  have hps := psat_water_pos L C (L.numCond - 1)
  unfold reportedRH pressureGas
  generalize humidityOf L C y b r = S
  generalize psatAtm L C (L.numCond - 1) = p at *
  rw [eq_div_iff (by positivity), div_eq_iff (by positivity)]
  have key : y (L.numSpecies - 1) / C.na * 8314000 * C.temp - 8.314 / 8.3144598 * S * (p * 101325)
      = 8314000 / 8314459.8 / C.na *
        (y (L.numSpecies - 1) * (8.3144598e6 * C.temp) - S * (p * 101325) * C.na) := by
    rw [show (8.3144598e6 : ℝ) = 8314459.8 by norm_num,
      show (8.314 : ℝ) / 8.3144598 = 8314000 / 8314459.8 by norm_num]
    field_simp
  rw [← sub_eq_zero, ← sub_eq_zero (a := y (L.numSpecies - 1) / C.na * 8314000 * C.temp), key,
    mul_eq_zero]
  have hnz : (8314000 : ℝ) / 8314459.8 / C.na ≠ 0 := by positivity
  exact ⟨fun h => Or.inr h, fun h => h.resolve_left hnz⟩

/-- C58, the part that holds: at equilibrium the reported relative humidity is right up to a relative
error of 0.006 percent. Missing: equality, because of the two values of the gas constant. -/
theorem C58_humidity_partial (L : Aerosol.Layout) (C : AeroConst) (y : ℕ → ℝ) (b : ℕ) (r : ℝ)
    (hL : GoodLayout L) (hw : L.incl.getLast? = some (L.numSpecies - 1)) (hT : 0 < C.temp)
    (hb : b < L.numBins) (hphys : Physical L (partArgs L C y) b)
    (hr : IsRadius L (partArgs L C y) b r)
    (hz : fixedYieldRhs L C y (L.numSpecies + b * L.numCond + (L.numCond - 1)) = 0) :
    |reportedRH L C y - humidityOf L C y b r| ≤ 6e-5 * |humidityOf L C y b r| := by
  rw [(C58_exact L C _ y b r hL hw hT hb hphys hr).1 hz]
  rw [show 8.314 / 8.3144598 * humidityOf L C y b r - humidityOf L C y b r
    = (8.314 / 8.3144598 - 1) * humidityOf L C y b r by ring, abs_mul]
  refine mul_le_mul_of_nonneg_right ?_ (abs_nonneg _)
  norm_num [abs_le]

/-- C58: the reported value is the ratio of the partial pressure of water to its saturation vapour
pressure, up to the rounding of the conversion from pascal to atmospheres. -/
theorem C58_saturation (L : Aerosol.Layout) (hpos : 0 < L.numCond) (C : AeroConst) (y : ℕ → ℝ) :
    reportedRH L C y * (0.00000986923 * 101325)
        = y (L.numSpecies - 1) / C.na * 8314000 * C.temp / satVapWater C.temp ∧
      |(0.00000986923 : ℝ) * 101325 - 1| ≤ 3e-7 := by
  constructor
  · have hsat : 0 < satVapWater C.temp := Real.exp_pos _
    have hp : psatAtm L C (L.numCond - 1) = satVapWater C.temp * 0.00000986923 := by
      unfold psatAtm
      rw [if_pos (by omega)]
      exact Real.rpow_logb (by norm_num) (by norm_num) (mul_pos hsat (by norm_num))
    unfold reportedRH pressureGas
    rw [hp]
    field_simp
  · norm_num [abs_le]

/-! ### A state where it fails -/

/-- One bin and no species but water. -/
def waterLayout : Aerosol.Layout := ⟨1, 1, 1, [0]⟩

/-- Some constants. -/
noncomputable def waterConst : AeroConst where
  ycore := fun _ => 1
  coreMw := fun _ => 1
  coreDensity := fun _ => 1
  nPerBin := fun _ => 1
  densityInput := fun _ => 1
  dStar := fun _ => 1
  alpha := fun _ => 0.1
  gamma := fun _ => 1
  mw := fun _ => 18
  satVp := fun _ => 0
  coreDiss := 3
  sigma := 1
  na := 1
  rGas := 8
  temp := 300

/-- Water vapour `v` and one unit of liquid water. -/
def waterState (v : ℝ) : ℕ → ℝ := fun i => if i = 0 then v else 1

theorem water_physical (v : ℝ) : Physical waterLayout (partArgs waterLayout waterConst (waterState v)) 0 where
  conc := by intro j _; simp [conc, partArgs, waterState, waterLayout]
  na := by norm_num [partArgs, waterConst]
  mw := by intro j _; norm_num [partArgs, waterConst]
  core := by norm_num [partArgs, waterConst]
  rho := by intro j _; norm_num [partArgs, waterConst]
  coreRho := by norm_num [partArgs, waterConst]
  number := by norm_num [partArgs, waterConst]
  diff := by intro j _; norm_num [partArgs, waterConst]
  acc := by intro j _; norm_num [partArgs, waterConst]
  path := by intro j _; norm_num [partArgs, waterConst]

theorem water_same (v w r : ℝ) :
    (IsRadius waterLayout (partArgs waterLayout waterConst (waterState v)) 0 r ↔
      IsRadius waterLayout (partArgs waterLayout waterConst (waterState w)) 0 r) ∧
    humidityOf waterLayout waterConst (waterState v) 0 r
      = humidityOf waterLayout waterConst (waterState w) 0 r := by
  constructor
  · simp [IsRadius, binVolume, mass, conc, partArgs, waterState, waterLayout]
  · simp [humidityOf, waterActivity, totalMoles, fsum, tempArray, binMass, binVolume, mass, conc,
      partArgs, waterState, waterLayout]

theorem C58_false : ¬ C58_Statement := by
  intro h
  obtain ⟨r, hr⟩ : ∃ r, IsRadius waterLayout (partArgs waterLayout waterConst (waterState 0)) 0 r :=
    ⟨_, (C39_radius _ _ _ (water_physical 0)).1⟩
  have hgood : GoodLayout waterLayout := ⟨rfl, by decide, by decide⟩
  set S := humidityOf waterLayout waterConst (waterState 0) 0 r with hS
  have hSpos : 0 < S := by
    rw [hS]
    unfold humidityOf
    refine mul_pos ?_ (Real.exp_pos _)
    norm_num [waterActivity, totalMoles, fsum, tempArray, partArgs, waterState, waterLayout, waterConst]
  -- the vapour in equilibrium
  set p := psatAtm waterLayout waterConst 0 with hp
  have hppos : 0 < p := psat_water_pos _ _ _
  set v := 8.314 / 8.3144598 * S * (p * 101325) / (8314000 * 300) with hv
  have hRH : reportedRH waterLayout waterConst (waterState v) = 8.314 / 8.3144598 * S := by
    have : reportedRH waterLayout waterConst (waterState v) = v / 1 * 8314000 * 300 / (p * 101325) := rfl
    rw [this, hv]
    field_simp
  have hrv := (water_same 0 v r).1.1 hr
  have hSv := (water_same 0 v r).2
  have hzero := (C58_exact waterLayout waterConst (fun _ => 0) (waterState v) 0 r hgood rfl
    (by norm_num [waterConst]) (by decide) (water_physical v) hrv).2 (by rw [hRH, ← hSv])
  have := h waterLayout waterConst (waterState v) 0 r hgood rfl (by norm_num [waterConst]) (by decide)
    (water_physical v) hrv hzero
  rw [hRH] at this
  have h2 : 8.314 / 8.3144598 * S = humidityOf waterLayout waterConst (waterState v) 0 r := this
  rw [← hSv, ← hS] at h2
  norm_num at h2
  linarith

/-! ### Examples -/

/-- The mechanism of `radicalText` with one bin, where formaldehyde and water condense. -/
example : ∃ L : Aerosol.Layout, GoodLayout L ∧
    L.numSpecies = (build radicalReactions).species.length + 1 ∧ 0 < L.numBins ∧
    L.incl.getLast? = some (L.numSpecies - 1) ∧ 1 < L.incl.length ∧
    ∀ (rates : Rates) (start h2o time : ℝ) (y : ℕ → ℝ),
      (aerosolRhs (build radicalReactions) 2 none L waterConst
        (ro2Indices (build radicalReactions).index) rates start h2o time y).isSome := by
  refine ⟨⟨1, 6, 2, [2, 5]⟩, ⟨rfl, by decide, by decide⟩, by decide +kernel, by decide, rfl, by decide,
    ?_⟩
  intro rates start h2o time y
  have hns : (⟨1, 6, 2, [2, 5]⟩ : Aerosol.Layout).numSpecies
      = (build radicalReactions).species.length + 1 := by decide +kernel
  have := (C57_defined radical_parses none ⟨1, 6, 2, [2, 5]⟩ hns waterConst rates start h2o time y).2
  refine this ?_
  unfold dydtFuncF
  rw [ro2Total_some (by decide +kernel), Option.bind_some]
  refine (gasRhsF_isSome radical_parses _ _ _ _ _ _).2 ?_
  intro s i hs hx
  refine (C18_valid_iff radical_parses ⟨y, fun _ => 0⟩ (fun _ => 0)).1 ?_ s i hs hx
  rw [exec_isSome_iff]
  intro k rhs hm
  exact (C18_valid_partial radical_parses radical_reads
    (fun q hq => (radical_regular q hq).gain) k rhs hm).2 _

end PyBox
