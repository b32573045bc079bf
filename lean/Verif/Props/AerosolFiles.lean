import Verif.Props.AerosolTraj
import Verif.Props.GasFiles
import Verif.Props.PartitionText

/-!
# C72: simulations with particles from their generated files

`dydt_func` of `/repo/Aerosol/f2py/ODE_solver.py` calls four compiled files: `Rate_coefficients.f90`,
`Reactants_conc.f90`, `Loss_Gain.f90` and `Partitioning.f90`. Here it is computed from the texts of these files.
-/

namespace PyBox

open Spec Aerosol Rl

namespace Spec

/-- The generated files of a simulation with particles. The rate file is the list of its `f.write` texts. -/
structure AeroFiles where
  rates : List Str
  reactants : Str
  lossGain : Str
  partitioning : Str

/-- The files the driver writes (`/repo/Aerosol/f2py/Aerosol_simulation_f2py.py` 226–244, 423) for a mechanism.
`num` is how Python prints coefficients; the conversion of the rate texts has been applied `times` times. -/
structure AeroFiles.WrittenFor (f : AeroFiles) (m : Mechanism) (cores : Option ℕ) (times : ℕ) (num : ℚ → Str)
    (L : Aerosol.Layout) : Prop where
  rates : f.rates = ratesFile .fortran cores ((convertTable (convertOf .fortran))^[times] m.tables.rate)
  reactants : ∃ P d, writeReactantsF m.tables.gen m.equations.toNat cores = .ok P ∧ '\n' ∉ d ∧
    f.reactants = fileText reactantsFLayout num d (L.numSpecies - 1) m.equations.toNat P
  lossGain : ∃ d, '\n' ∉ d ∧ f.lossGain = fileText lossGainFLayout num d (L.numSpecies - 1) m.equations.toNat
    (writeLossGainF m.tables.gen (L.numSpecies - 1) cores)
  partitioning : ∃ d, '\n' ∉ d ∧ f.partitioning = Ft.partText d L (L.numSpecies + L.numBins * L.numCond)

/-- Everything a call of the partitioning routine can depend on besides its arguments: contents of memory, the
arguments that are never read, threads and their order of execution. -/
structure Machine (L : Aerosol.Layout) where
  mem : Ft.Junk
  threadMem : ℕ → Ft.Junk
  unused : Ft.Unused L
  thr : ℕ → ℕ
  tr : List Ft.Event

/-- The loop of the partitioning routine is executed in a possible order in which every pass finds its own indices in
the shared variables. -/
structure Machine.Orderly {L : Aerosol.Layout} (M : Machine L) : Prop where
  order : PossibleOrder L M.thr M.tr
  synced : Synced (indexOrder L M.tr)

/-- `dydt_func(t,y)` (`/repo/Aerosol/f2py/ODE_solver.py` 57–156) from the files. `junk` are the contents of memory the
rate routine finds. -/
noncomputable def dydtOfFiles (strict : Prop) (f : AeroFiles) (L : Aerosol.Layout) (C : AeroConst) (reactions : ℕ)
    (indices : List ℕ) (junk : Vals) (M : Machine L) (start h2o time : ℝ) (y : ℕ → ℝ) : Option (ℕ → ℝ) :=
  (ro2Total indices y).bind (fun ro2 =>
    (program .fortran f.rates).bind (fun p =>
      (rhsOfFiles reactantsFFrame lossGainFFrame (L.numSpecies - 1) reactions f.reactants f.lossGain
        (generatedRates .fortran p junk (start + time) ro2 h2o C.temp) (firstEntries (L.numSpecies - 1) y)).bind
        (fun gas =>
          (callPartition strict f.partitioning M.mem M.threadMem M.thr M.tr
            (Ft.callArgs L (L.numSpecies + L.numBins * L.numCond) (partArgs L C y) M.unused)).bind (fun results =>
              match results with
              | [_, _, _, .arr part] => some (addUp L gas (fun i => part.getD i 0))
              | _ => none))))

/-- `F` is the function handed to the solver, computed from the files. Memory, threads and their order may be different
in every call. -/
def FileSystem (f : AeroFiles) (m : Mechanism) (L : Aerosol.Layout) (C : AeroConst) (junk : Vals)
    (M : ℝ → (ℕ → ℝ) → Machine L) (start h2o : ℝ) {n : ℕ} (F : ℝ → (Fin n → ℝ) → Fin n → ℝ) : Prop :=
  n = L.numSpecies + L.numBins * L.numCond ∧ ∀ (time : ℝ) (y : Fin n → ℝ), ∃ out,
    dydtOfFiles False f L C m.equations.toNat (ro2Indices m.tables.index) junk (M time (stateOf y)) start h2o time
      (stateOf y) = some out ∧ ∀ i : Fin n, F time y i = out i

end Spec

/-- One thread is always in order. -/
theorem one_thread_orderly {L : Aerosol.Layout} {M : Machine L} (h1 : ∀ b, M.thr b = 0)
    (ho : PossibleOrder L M.thr M.tr) : M.Orderly := by
  refine ⟨ho, fun pre b post he => ?_⟩
  obtain ⟨pre0, hpre⟩ := interleaving_before_write (possible_interleaving ho) pre post b he
  rw [List.filter_eq_self.mpr (fun e _ => by simp [h1])] at hpre
  subst hpre
  constructor <;> simp [lastBin, List.filter_append]

theorem Spec.PhysConst.running {L : Aerosol.Layout} {C : AeroConst} (hC : PhysConst L C) {y : ℕ → ℝ}
    (hy : ∀ i, 0 ≤ y i) : Running L (partArgs L C y) where
  bins := fun _ hb => hC.physical hy hb
  moles := fun b hb => by
    refine add_pos_of_nonneg_of_pos (Finset.sum_nonneg (fun j _ => ?_)) (mul_pos (hC.ycore b hb) hC.coreDiss)
    rw [conc_partArgs]
    exact hy _
  gas := hC.rGas
  temp := hC.temp

theorem addUp_array (L : Aerosol.Layout) (gas part : ℕ → ℝ) :
    addUp L gas (fun i => ((List.range (L.numSpecies + L.numBins * L.numCond)).map part).getD i 0) =
      addUp L gas part := by
  funext i
  unfold addUp
  congr 1
  split
  · rename_i h
    rw [Nat.mul_comm] at h
    simp [List.getD_eq_getElem?_getD, h]
  · rfl

section

variable {text : Str} {m : Mechanism} {qs : List RawEqn} {cores : Option ℕ} {times : ℕ} {num : ℚ → Str}
  {L : Aerosol.Layout} {C : AeroConst} {f : AeroFiles} {junk : Vals} {start h2o : ℝ}

/-- **C72**: what `dydt_func` computes with the generated files is the model of all statements about simulations with
particles, with the rate coefficients of the generated rate file. In the strict reading no operation of the
partitioning routine is undefined for physical constants and non-negative states. -/
theorem C72_files {strict : Prop} (h : extractMechanism text = .ok m) (hw : Prints num id m.tables) (hL : GoodLayout L)
    (hc : 1 ≤ L.numCond) (hf : f.WrittenFor m cores times num L) {p : List Stmt}
    (hp : program .fortran f.rates = some p) {M : Machine L} (hM : M.Orderly) (indices : List ℕ) (junk : Vals)
    (start h2o time : ℝ) (y : ℕ → ℝ) (hs : strict → PhysConst L C ∧ ∀ i, 0 ≤ y i) :
    dydtOfFiles strict f L C m.equations.toNat indices junk M start h2o time y =
      aerosolRhs m.tables m.equations.toNat cores L C indices (generatedRates .fortran p junk) start h2o time y := by
  obtain ⟨-, ⟨P, d1, hP, hd1, e1⟩, ⟨d2, hd2, e2⟩, ⟨d3, hd3, e3⟩⟩ := hf
  obtain ⟨P', hP', hgas⟩ := C70_rhs_fortran h hw (L.numSpecies - 1) (L.numSpecies - 1) cores
  rw [hP] at hP'
  obtain rfl : P = P' := by injection hP'
  unfold dydtOfFiles aerosolRhs
  refine Option.bind_congr (fun ro2 _ => ?_)
  rw [hp, Option.bind_some, e1, e2, hgas hd1 hd2, Option.map_eq_bind]
  refine Option.bind_congr (fun gas _ => ?_)
  rw [e3, C71_synced hd3 hL hc (fun h => (hs h).1.running (hs h).2) M.unused M.mem M.threadMem hM.order hM.synced,
    Option.bind_some]
  show some _ = some _
  rw [addUp_array]

/-- **C72**: from the mechanism file to the right-hand side. The generated files compute the rate law of the mechanism,
where every reaction has the rate coefficient its own text stands for, and add the exchange with the particles: what the
gas loses to a bin the bin gains, and each bin gains by the transfer law. -/
theorem C72_rate_law {strict : Prop} (h : extractMechanism text = .ok m) (hq : Reads text m.equations.toNat qs)
    (hreg : ∀ q ∈ qs, Regular q) (hsame : SameNet m) (hrad : ∃ s ∈ ro2Names, (m.tables.index.get? s).isSome)
    (hn : ∀ s ∈ lostRadicals ++ damagedEntries, m.tables.index.get? s = none) (hw : Prints num id m.tables)
    (hL : GoodLayout L) (hc : 1 ≤ L.numCond) (hns : L.numSpecies = m.tables.species.length + 1)
    (hf : f.WrittenFor m cores times num L) (hread : ReadableRates .fortran ((convertOf .fortran)^[times]) qs)
    {M : Machine L} (hM : M.Orderly) (junk : Vals) (start h2o time : ℝ) (y : ℕ → ℝ)
    (hs : strict → PhysConst L C ∧ ∀ i, 0 ≤ y i) :
    ∃ chem out, dydtOfFiles strict f L C m.equations.toNat (ro2Indices m.tables.index) junk M start h2o time y =
        some out ∧
      (∀ s i, m.tables.index.get? s = some i → chem i = if s ∈ heldConstant then 0 else
        rateLaw qs (concOf m.tables y) (textRate .fortran ((convertOf .fortran)^[times]) qs C.temp (start + time)
          (radicalSum m.tables.index y) h2o) s) ∧
      Coupled L chem out ∧
      ∀ b j s r, b < L.numBins → L.incl[j]? = some s → Physical L (partArgs L C y) b →
        IsRadius L (partArgs L C y) b r →
        out (L.numSpecies + b * L.numCond + j) =
          4 * fPi * (r * 100) * C.nPerBin b * C.dStar j * fuchs (C.gamma j / r) (C.alpha j)
            * (y s - equilibrium L (partArgs L C y) b j r) := by
  obtain ⟨p, hp, -⟩ := C66_value h hq (b := .fortran) (by decide) cores hread
  obtain ⟨chem, ho, hv⟩ := C55_kinetics_partial h hq hreg hrad hn (generatedRates .fortran p junk) start h2o C.temp time y
  refine ⟨chem, addUp L chem (partition L (partArgs L C y)), ?_, fun s i hs => ?_, addUp_coupled hL _ _,
    fun b j s r hb hj hph hr => (C57_rate hL C chem y hb hj rfl hph hr).1⟩
  · rw [C72_files h hw hL hc hf (hf.rates ▸ hp) hM _ junk start h2o time y hs]
    unfold dydtFunc at ho
    unfold aerosolRhs
    obtain ⟨r, hr, hgas⟩ := Option.bind_eq_some_iff.1 ho
    rw [hr, Option.bind_some, gasRhsF_congr h _ cores (fun _ => 0) (fun _ => 0) _
      (y := firstEntries (L.numSpecies - 1) y) (y' := y) (fun i hi => by
        unfold firstEntries
        rw [if_pos (by omega)]), gasRhsF_eq h hq (allWritten_of_good h hq fun q hq => (hreg q hq).gain) hsame, hgas, Option.map_some]
  · rw [hv s i hs]
    split
    · rfl
    · exact rateLaw_congr (fun e he => generated_textRate h hq (by decide) hread hp junk C.temp _ _ h2o he) s

/-- C72: so the function handed to the solver is the one all statements about simulations with particles are about. -/
theorem C72_system (h : extractMechanism text = .ok m) (hw : Prints num id m.tables) (hL : GoodLayout L)
    (hc : 1 ≤ L.numCond) (hf : f.WrittenFor m cores times num L) {p : List Stmt}
    (hp : program .fortran f.rates = some p) {M : ℝ → (ℕ → ℝ) → Machine L} (hM : ∀ t y, (M t y).Orderly)
    {n : ℕ} {F : ℝ → (Fin n → ℝ) → Fin n → ℝ} :
    FileSystem f m L C junk M start h2o F ↔
      AerosolSystem m cores L C (generatedRates .fortran p junk) start h2o F := by
  refine and_congr Iff.rfl (forall_congr' fun t => forall_congr' fun y => ?_)
  rw [C72_files h hw hL hc hf hp (hM t (stateOf y)) _ junk start h2o t (stateOf y) (fun h => h.elim)]

/-- C72: `dydt_func` does not fail, and in the strict reading (physical constants, non-negative states) no operation of
the partitioning routine is undefined, if there are peroxy radicals in the mechanism, the rate texts can be read and
the products have coefficients. -/
theorem C72_defined {strict : Prop} (h : extractMechanism text = .ok m) (hq : Reads text m.equations.toNat qs)
    (hall : AllWritten m) (hw : Prints num id m.tables) (hL : GoodLayout L) (hc : 1 ≤ L.numCond)
    (hns : L.numSpecies = m.tables.species.length + 1) (hf : f.WrittenFor m cores times num L)
    (hread : ReadableRates .fortran ((convertOf .fortran)^[times]) qs)
    (hro2 : ro2Indices m.tables.index ≠ []) {M : Machine L} (hM : M.Orderly)
    (junk : Vals) (start h2o time : ℝ) (y : ℕ → ℝ) (hs : strict → PhysConst L C ∧ ∀ i, 0 ≤ y i) :
    (dydtOfFiles strict f L C m.equations.toNat (ro2Indices m.tables.index) junk M start h2o time y).isSome := by
  obtain ⟨p, hp, -⟩ := C66_value h hq (b := .fortran) (by decide) cores hread
  rw [← hf.rates] at hp
  rw [C72_files h hw hL hc hf hp hM _ junk start h2o time y hs]
  refine (C57_defined h cores L hns C _ start h2o time y).2 ?_
  unfold dydtFuncF
  rw [ro2Total_some hro2, Option.bind_some]
  refine (gasRhsF_isSome h _ _ _ _ _ _).2 hall

/-- C72: hence there is a function to hand to the solver. -/
theorem C72_handed (h : extractMechanism text = .ok m) (hq : Reads text m.equations.toNat qs)
    (hall : AllWritten m) (hw : Prints num id m.tables) (hL : GoodLayout L) (hc : 1 ≤ L.numCond)
    (hns : L.numSpecies = m.tables.species.length + 1) (hf : f.WrittenFor m cores times num L)
    (hread : ReadableRates .fortran ((convertOf .fortran)^[times]) qs)
    (hro2 : ro2Indices m.tables.index ≠ []) {M : ℝ → (ℕ → ℝ) → Machine L} (hM : ∀ t y, (M t y).Orderly) :
    ∃ F : ℝ → (Fin (L.numSpecies + L.numBins * L.numCond) → ℝ) → Fin (L.numSpecies + L.numBins * L.numCond) → ℝ,
      FileSystem f m L C junk M start h2o F := by
  have hsome := fun t (y : Fin (L.numSpecies + L.numBins * L.numCond) → ℝ) =>
    C72_defined (strict := False) (C := C) h hq hall hw hL hc hns hf hread hro2 (hM t (stateOf y)) junk start h2o t
      (stateOf y) (fun h => h.elim)
  exact ⟨fun t y i => (Option.get _ (hsome t y)) i, rfl,
    fun t y => ⟨_, (Option.some_get (hsome t y)).symm, fun _ => rfl⟩⟩

/-- Systems whose rate coefficients of reactions agree are the same, whatever the number of cores. -/
theorem Spec.AerosolSystem.eq (h : extractMechanism text = .ok m) (hq : Reads text m.equations.toNat qs)
    (hns : L.numSpecies = m.tables.species.length + 1) {cores' : Option ℕ} {rates rates' : Rates} {n : ℕ}
    {F F' : ℝ → (Fin n → ℝ) → Fin n → ℝ} (hF : AerosolSystem m cores L C rates start h2o F)
    (hF' : AerosolSystem m cores' L C rates' start h2o F')
    (hr : ∀ t r e, e < qs.length → rates t r h2o C.temp e = rates' t r h2o C.temp e) : F = F' := by
  obtain ⟨sp, hsp, -⟩ := index_sum h hq rfl
  have a := hF.mixed h hq hns hsp
  have b := hF'.mixed h hq hns hsp
  funext t z i
  rw [a.value, b.value]
  congr 1
  funext j
  unfold gasPart
  split
  · unfold kineticValue
    split
    · rfl
    · exact Finset.sum_congr rfl fun e he => by rw [hr _ _ e (Finset.mem_range.1 he)]
  · rfl

/-- Only the rate coefficients of reactions matter. -/
theorem Spec.AerosolSystem.congr (h : extractMechanism text = .ok m) (hq : Reads text m.equations.toNat qs)
    (hns : L.numSpecies = m.tables.species.length + 1) {rates rates' : Rates} {n : ℕ}
    {F : ℝ → (Fin n → ℝ) → Fin n → ℝ} (hF : AerosolSystem m cores L C rates start h2o F)
    (hr : ∀ t r e, e < qs.length → rates t r h2o C.temp e = rates' t r h2o C.temp e) :
    AerosolSystem m cores L C rates' start h2o F := by
  have hsome : ∀ t (y : Fin n → ℝ), (aerosolRhs m.tables m.equations.toNat cores L C (ro2Indices m.tables.index) rates'
      start h2o t (stateOf y)).isSome := by
    intro t y
    obtain ⟨out, ho, -⟩ := hF.2 t y
    unfold aerosolRhs at ho ⊢
    cases hr : ro2Total (ro2Indices m.tables.index) (stateOf y) with
    | none => rw [hr] at ho; cases ho
    | some r =>
      rw [hr, Option.bind_some] at ho
      have : (gasRhsF m.tables m.equations.toNat (L.numSpecies - 1) cores (fun _ => 0) (fun _ => 0)
          (rates (start + t) r h2o C.temp) (firstEntries (L.numSpecies - 1) (stateOf y))).isSome := by
        rw [Option.isSome_iff_exists]
        obtain ⟨g, hg, -⟩ := Option.map_eq_some_iff.1 ho
        exact ⟨g, hg⟩
      rw [Option.bind_some, Option.isSome_map]
      exact (gasRhsF_isSome h _ _ _ _ _ _).2 ((gasRhsF_isSome h _ _ _ _ _ _).1 this)
  have hF' : AerosolSystem m cores L C rates' start h2o (fun t y (i : Fin n) => (Option.get _ (hsome t y)) i) :=
    ⟨hF.1, fun t y => ⟨_, (Option.some_get (hsome t y)).symm, fun _ => rfl⟩⟩
  rwa [hF.eq h hq hns hF' hr]

/-- The rate coefficients of reactions depend neither on the contents of memory nor on the number of cores. -/
theorem fortran_rates_eq (h : extractMechanism text = .ok m) (hq : Reads text m.equations.toNat qs)
    {cores' : Option ℕ} (hread : ReadableRates .fortran ((convertOf .fortran)^[times]) qs) {p p' : List Stmt}
    (hp : program .fortran (ratesFile .fortran cores ((convertTable (convertOf .fortran))^[times] m.tables.rate)) = some p)
    (hp' : program .fortran (ratesFile .fortran cores' ((convertTable (convertOf .fortran))^[times] m.tables.rate)) =
      some p') (junk junk' : Vals) (t r h2o T : ℝ) {e : ℕ} (he : e < qs.length) :
    generatedRates .fortran p junk t r h2o T e = generatedRates .fortran p' junk' t r h2o T e := by
  obtain ⟨_, h1, v1⟩ := C66_value h hq (b := .fortran) (by decide) cores hread
  obtain ⟨_, h2, v2⟩ := C66_value h hq (b := .fortran) (by decide) cores' hread
  rw [hp] at h1
  rw [hp'] at h2
  obtain rfl := Option.some.inj h1
  obtain rfl := Option.some.inj h2
  have hq' := List.getElem?_eq_getElem he
  obtain ⟨x, hx, -⟩ := hread _ (List.getElem_mem he)
  rw [(v1 junk T t r h2o).1 e _ x hq' hx, (v2 junk' T t r h2o).1 e _ x hq' hx]

section Runs

variable {M : ℝ → (ℕ → ℝ) → Machine L} {n : ℕ} {F : ℝ → (Fin n → ℝ) → Fin n → ℝ}

/-- The system given by the files is one of the model, with regular rate coefficients. -/
theorem file_system (h : extractMechanism text = .ok m) (hq : Reads text m.equations.toNat qs)
    (hw : Prints num id m.tables) (hL : GoodLayout L) (hc : 1 ≤ L.numCond)
    (hns : L.numSpecies = m.tables.species.length + 1)
    (hf : f.WrittenFor m cores times num L) (hread : ReadableRates .fortran ((convertOf .fortran)^[times]) qs)
    (hM : ∀ t y, (M t y).Orderly) (hF : FileSystem f m L C junk M start h2o F) :
    ∃ rates, AerosolSystem m cores L C rates start h2o F ∧
      (NonnegRates .fortran ((convertOf .fortran)^[times]) qs h2o C.temp → PiecewiseRates rates start h2o C.temp) := by
  obtain ⟨p, hp, -⟩ := C66_value h hq (b := .fortran) (by decide) cores hread
  have hp' := hp
  rw [← hf.rates] at hp'
  refine ⟨generatedRates .fortran p (fun _ => 0), ?_, fun hnn =>
    C66_piecewise h hq (by decide) hread hp (fun _ => le_refl _) start hnn⟩
  exact ((C72_system h hw hL hc hf hp' hM).1 hF).congr h hq hns fun t r e he =>
    fortran_rates_eq h hq hread hp hp junk (fun _ => 0) t r h2o C.temp he

/-- C72: the system handed to the solver depends neither on the number of cores in the files, nor on how coefficients
are printed, nor on dates, memory, threads and orders. -/
theorem C72_same_system (h : extractMechanism text = .ok m) (hq : Reads text m.equations.toNat qs)
    (hw : Prints num id m.tables) (hL : GoodLayout L) (hc : 1 ≤ L.numCond)
    (hns : L.numSpecies = m.tables.species.length + 1)
    (hf : f.WrittenFor m cores times num L) (hread : ReadableRates .fortran ((convertOf .fortran)^[times]) qs)
    (hM : ∀ t y, (M t y).Orderly) (hF : FileSystem f m L C junk M start h2o F)
    {cores' : Option ℕ} {num' : ℚ → Str} (hw' : Prints num' id m.tables) {f' : AeroFiles}
    (hf' : f'.WrittenFor m cores' times num' L) {junk' : Vals} {M' : ℝ → (ℕ → ℝ) → Machine L}
    (hM' : ∀ t y, (M' t y).Orderly) {F' : ℝ → (Fin n → ℝ) → Fin n → ℝ}
    (hF' : FileSystem f' m L C junk' M' start h2o F') : F = F' := by
  obtain ⟨p, hp, -⟩ := C66_value h hq (b := .fortran) (by decide) cores hread
  obtain ⟨p', hp', -⟩ := C66_value h hq (b := .fortran) (by decide) cores' hread
  exact ((C72_system h hw hL hc hf (hf.rates ▸ hp) hM).1 hF).eq h hq hns
    ((C72_system h hw' hL hc hf' (hf'.rates ▸ hp') hM').1 hF') fun t r e he =>
      fortran_rates_eq h hq hread hp hp' junk junk' t r h2o C.temp he

/-- C72, amounts: with exact solver calls, the generated files conserve every total that the mechanism conserves, over
gas and particles. -/
theorem C72_conserved (h : extractMechanism text = .ok m) (hq : Reads text m.equations.toNat qs)
    (hg : ∀ q ∈ qs, GainGood q) (hsame : SameNet m) (hw : Prints num id m.tables) (hL : GoodLayout L)
    (hc : 1 ≤ L.numCond) (hns : L.numSpecies = m.tables.species.length + 1) (hwater : L.numSpecies - 1 ∈ L.incl)
    (hf : f.WrittenFor m cores times num L) (hread : ReadableRates .fortran ((convertOf .fortran)^[times]) qs)
    (hM : ∀ t y, (M t y).Orderly) (hF : FileSystem f m L C junk M start h2o F)
    (w : Str → ℝ) (hbal : ∀ q ∈ qs, Spec.Balanced w q) (hconst : ∀ s ∈ heldConstant, w s = 0)
    {solve : (Fin n → ℝ) → ℚ → Fin n → ℝ} {sim batch : ℚ} (hs : 0 < sim) (hb : 0 < batch) {zero y0 : Fin n → ℝ}
    {ts : List ℚ} {rows : List (Fin n → ℝ)} (hrun : runSimulation id solve zero y0 sim batch = .ok (ts, rows))
    (hex : ExactBatches F solve batch y0 rows.length) :
    ∀ row ∈ rows, weightedTotal m w (allPhases L (stateOf row)) = weightedTotal m w (allPhases L (stateOf y0)) := by
  obtain ⟨rates, hA, -⟩ := file_system h hq hw hL hc hns hf hread hM hF
  exact C62_conserved h hq hg hsame hL hns hwater w hbal hconst hA hs hb hrun hex

/-- C72, signs: with exact solver calls, the generated files give no negative amounts. -/
theorem C72_nonneg (h : extractMechanism text = .ok m) (hq : Reads text m.equations.toNat qs)
    (hw : Prints num id m.tables) (hL : GoodLayout L) (hc : 1 ≤ L.numCond) (hC : PhysConst L C)
    (hns : L.numSpecies = m.tables.species.length + 1)
    (hpos : ∀ q ∈ qs, ∀ p ∈ chemReactants q ++ chemProducts q, 0 < p.1) (hone : WholeReactants qs)
    (hf : f.WrittenFor m cores times num L) (hread : ReadableRates .fortran ((convertOf .fortran)^[times]) qs)
    (hnn : NonnegRates .fortran ((convertOf .fortran)^[times]) qs h2o C.temp)
    (hM : ∀ t y, (M t y).Orderly) (hF : FileSystem f m L C junk M start h2o F)
    {solve : (Fin n → ℝ) → ℚ → Fin n → ℝ} {sim batch : ℚ} (hs : 0 < sim) (hb : 0 < batch) {zero y0 : Fin n → ℝ}
    (hy0 : ∀ i, 0 ≤ y0 i)
    {ts : List ℚ} {rows : List (Fin n → ℝ)} (hrun : runSimulation id solve zero y0 sim batch = .ok (ts, rows))
    (hex : ExactBatches F solve batch y0 rows.length) : ∀ row ∈ rows, ∀ i, 0 ≤ row i := by
  obtain ⟨rates, hA, hr⟩ := file_system h hq hw hL hc hns hf hread hM hF
  exact C63_nonneg h hq hL hC hns hpos hone (hr hnn).regular hA hs hb hy0 hrun hex

/-- C72, existence: the system given by the generated files has an exact solver. -/
theorem C72_exists (h : extractMechanism text = .ok m) (hq : Reads text m.equations.toNat qs)
    (hless : GainsLess m) (hw : Prints num id m.tables) (hL : GoodLayout L)
    (hc : 1 ≤ L.numCond) (hC : PhysConst L C)
    (hns : L.numSpecies = m.tables.species.length + 1) (hwater : L.numSpecies - 1 ∈ L.incl)
    (hpos : ∀ q ∈ qs, ∀ p ∈ chemReactants q ++ chemProducts q, 0 < p.1) (hone : WholeReactants qs)
    (hweight : ∀ s i, m.tables.index.get? s = some i → s ∉ heldConstant → ∃ w : Str → ℝ,
      (∀ s, 0 ≤ w s) ∧ 0 < w s ∧ (∀ s ∈ heldConstant, w s = 0) ∧ ∀ q ∈ qs, NotGained w q)
    (hf : f.WrittenFor m cores times num L) (hread : ReadableRates .fortran ((convertOf .fortran)^[times]) qs)
    (hnn : NonnegRates .fortran ((convertOf .fortran)^[times]) qs h2o C.temp)
    (hM : ∀ t y, (M t y).Orderly) (hF : FileSystem f m L C junk M start h2o F) {batch : ℚ} (hb : 0 < batch) :
    ∃ solve : (Fin n → ℝ) → ℚ → Fin n → ℝ, ∀ y0, (∀ i, 0 ≤ y0 i) → ∀ k, ExactBatches F solve batch y0 k := by
  obtain ⟨rates, hA, hr⟩ := file_system h hq hw hL hc hns hf hread hM hF
  exact C64_exists h hq hless hL hC hns hwater hpos hone hweight (hr hnn) hA hb

/-- C72, uniqueness: exact solvers report the same rows whatever the numbers of cores in the files, the printed
coefficients and dates, and the memory, threads and orders of the calls were. -/
theorem C72_unique (h : extractMechanism text = .ok m) (hq : Reads text m.equations.toNat qs)
    (hw : Prints num id m.tables) (hL : GoodLayout L) (hc : 1 ≤ L.numCond) (hC : PhysConst L C)
    (hns : L.numSpecies = m.tables.species.length + 1)
    (hpos : ∀ q ∈ qs, ∀ p ∈ chemReactants q ++ chemProducts q, 0 < p.1) (hone : WholeReactants qs)
    (hf : f.WrittenFor m cores times num L) (hread : ReadableRates .fortran ((convertOf .fortran)^[times]) qs)
    (hnn : NonnegRates .fortran ((convertOf .fortran)^[times]) qs h2o C.temp)
    (hM : ∀ t y, (M t y).Orderly) (hF : FileSystem f m L C junk M start h2o F)
    {cores' : Option ℕ} {num' : ℚ → Str} (hw' : Prints num' id m.tables) {f' : AeroFiles}
    (hf' : f'.WrittenFor m cores' times num' L) {junk' : Vals} {M' : ℝ → (ℕ → ℝ) → Machine L}
    (hM' : ∀ t y, (M' t y).Orderly) {F' : ℝ → (Fin n → ℝ) → Fin n → ℝ}
    (hF' : FileSystem f' m L C junk' M' start h2o F')
    {solve solve' : (Fin n → ℝ) → ℚ → Fin n → ℝ} {sim batch : ℚ} (hs : 0 < sim) (hb : 0 < batch)
    {zero y0 : Fin n → ℝ} (hy0 : ∀ i, 0 ≤ y0 i) {ts ts' : List ℚ} {rows rows' : List (Fin n → ℝ)}
    (hrun : runSimulation id solve zero y0 sim batch = .ok (ts, rows))
    (hrun' : runSimulation id solve' zero y0 sim batch = .ok (ts', rows'))
    (hex : ExactBatches F solve batch y0 rows.length)
    (hex' : ExactBatches F' solve' batch y0 rows'.length) : ts = ts' ∧ rows = rows' := by
  obtain ⟨rates, hA, hr⟩ := file_system h hq hw hL hc hns hf hread hM hF
  obtain rfl := C72_same_system h hq hw hL hc hns hf hread hM hF hw' hf' hM' hF'
  exact C64_unique h hq hL hC hns hpos hone (hr hnn) hA hs hb hy0 hrun hrun' hex hex'

end Runs

end

/-! ## A case the theorems apply to -/

/-- The files of `radicalText` for two cores. -/
def radicalFiles : AeroFiles where
  rates := ratesFile .fortran (some 2) ((convertTable (convertOf .fortran))^[2] (build radicalReactions).rate)
  reactants := match writeReactantsF (build radicalReactions).gen 2 (some 2) with
    | .ok P => fileText reactantsFLayout shortNum [] 5 2 P
    | .error _ => []
  lossGain := fileText lossGainFLayout shortNum [] 5 2 (writeLossGainF (build radicalReactions).gen 5 (some 2))
  partitioning := Ft.partText [] radicalLayout 10

theorem radicalFiles_written :
    radicalFiles.WrittenFor ⟨build radicalReactions, 2⟩ (some 2) 2 shortNum radicalLayout where
  rates := rfl
  reactants := by
    obtain ⟨P, hP, -⟩ := C70_rhs_fortran radical_parses
      (shortNum_prints (by decide +kernel) (by decide +kernel)) 5 5 (some 2)
    refine ⟨P, [], hP, by simp, ?_⟩
    have hP' : writeReactantsF (build radicalReactions).gen 2 (some 2) = .ok P := hP
    show (match writeReactantsF (build radicalReactions).gen 2 (some 2) with
      | .ok P => fileText reactantsFLayout shortNum [] 5 2 P
      | .error _ => []) = _
    rw [hP']
    rfl
  lossGain := ⟨[], by simp, rfl⟩
  partitioning := ⟨[], by simp, rfl⟩

/-- One thread that finds zeros in memory. -/
def plainMachine (L : Aerosol.Layout) (U : Ft.Unused L) : Machine L where
  mem := ⟨fun _ => 0, fun _ => 0, fun _ _ => 0, fun _ _ _ => 0⟩
  threadMem := fun _ => ⟨fun _ => 0, fun _ => 0, fun _ _ => 0, fun _ _ _ => 0⟩
  unused := U
  thr := fun _ => 0
  tr := Ft.allEvents (passLength L) 1 L.numBins

theorem plainMachine_orderly (L : Aerosol.Layout) (U : Ft.Unused L) : (plainMachine L U).Orderly :=
  one_thread_orderly (fun _ => rfl) (fun _ => rfl)

/-- All hypotheses are met by the files of `radicalText` for two cores, with two bins, formaldehyde and water
condensing: they define a system with an exact solver, and a run of two batches keeps the total of `radicalWeight` over
all phases and stays non-negative. -/
theorem radical_files_run (M : ℝ → (ℕ → ℝ) → Machine radicalLayout) (hM : ∀ t y, (M t y).Orderly) (junk : Vals) :
    ∃ (F : ℝ → (Fin 10 → ℝ) → Fin 10 → ℝ) (solve : (Fin 10 → ℝ) → ℚ → Fin 10 → ℝ),
      FileSystem radicalFiles ⟨build radicalReactions, 2⟩ radicalLayout waterConst junk M 43200 1000 F ∧
      ∀ y0 : Fin 10 → ℝ, (∀ i, 0 ≤ y0 i) → (∀ k, ExactBatches F solve 60 y0 k) ∧
        ∃ rows, runSimulation id solve (fun _ => 0) y0 (((2 : ℕ) : ℚ) * 60) 60 = .ok ([60, 120], rows) ∧
          rows.length = 2 ∧ ∀ row ∈ rows, (∀ i, 0 ≤ row i) ∧
            weightedTotal ⟨build radicalReactions, 2⟩ (fun s => (radicalWeight s : ℝ))
                (allPhases radicalLayout (stateOf row))
              = weightedTotal ⟨build radicalReactions, 2⟩ (fun s => (radicalWeight s : ℝ))
                (allPhases radicalLayout (stateOf y0)) := by
  obtain ⟨-, c2, -⟩ := radical_rates
  obtain ⟨f1, f2⟩ := rateTextCheck_reads c2
  have hprint : Prints shortNum id (build radicalReactions) :=
    shortNum_prints (by decide +kernel) (by decide +kernel)
  have hnn := C66_nonneg (b := .fortran) (by decide) f1 f2 (h2o := 1000) (waterConst_phys radicalLayout).temp (by norm_num)
  have hg : ∀ q ∈ radicalReactions, GainGood q := fun q hq => (radical_regular q hq).gain
  have hns : radicalLayout.numSpecies = (build radicalReactions).species.length + 1 := by decide +kernel
  have hwater : radicalLayout.numSpecies - 1 ∈ radicalLayout.incl := by decide
  obtain ⟨F, hF⟩ : ∃ F : ℝ → (Fin 10 → ℝ) → Fin 10 → ℝ,
      FileSystem radicalFiles ⟨build radicalReactions, 2⟩ radicalLayout waterConst junk M 43200 1000 F := C72_handed (C := waterConst) (junk := junk) (start := 43200) (h2o := 1000) radical_parses
    radical_reads (allWritten_of_good radical_parses radical_reads hg) hprint radicalLayout_good (by decide) hns radicalFiles_written f1 (by decide +kernel) hM
  obtain ⟨solve, hsolve⟩ := C72_exists radical_parses radical_reads radical_sameNet.less hprint radicalLayout_good
    (by decide) (waterConst_phys _) hns hwater radical_positive.1 radical_positive.2 radical_weights
    radicalFiles_written f1 hnn hM hF (batch := 60) (by norm_num)
  refine ⟨F, solve, hF, fun y0 hy0 => ⟨hsolve y0 hy0, ?_⟩⟩
  have hrun := C32_C33_whole_batches (n := 2) (batch := 60) (by norm_num) (by norm_num)
    (exact_id 60 2) solve (fun _ => 0) y0
  have ht : (List.range 2).map (fun k : ℕ => ((k : ℚ) + 1) * 60) = [60, 120] := by decide +kernel
  rw [ht] at hrun
  refine ⟨_, hrun, by simp, fun row hrow => ⟨?_, ?_⟩⟩
  · exact C72_nonneg radical_parses radical_reads hprint radicalLayout_good (by decide) (waterConst_phys _) hns
      radical_positive.1 radical_positive.2 radicalFiles_written f1 hnn hM hF (by norm_num)
      (by norm_num) hy0 hrun (hsolve y0 hy0 _) row hrow
  · exact C72_conserved radical_parses radical_reads hg radical_sameNet hprint radicalLayout_good (by decide) hns hwater
      radicalFiles_written f1 hM hF _ radical_balanced radical_held (by norm_num) (by norm_num) hrun
      (hsolve y0 hy0 _) row hrow

end PyBox
