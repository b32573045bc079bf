import Verif.Props.GasText
import Verif.Props.GeneratedRates

/-!
# C73: gas simulations from their generated files

`dydt_func` of `/repo/ODE_solver.py` and of `/repo/f2py/ODE_solver.py` computed from the texts of the three files each
version calls.
-/

namespace PyBox

open Spec Rl

namespace Spec

/-- The generated files of a gas simulation. The rate file is the list of its `f.write` texts. -/
structure GasFiles where
  rates : List Str
  reactants : Str
  lossGain : Str

/-- The files of the Python version (`/repo/Gas_simulation.py` 155–162) for a mechanism. `num` is how Python prints
coefficients; the conversion of the rate texts has been applied `times` times. -/
structure GasFiles.WrittenPython (f : GasFiles) (m : Mechanism) (times : ℕ) (num : ℚ → Str) : Prop where
  rates : f.rates = ratesFile .numba none ((convertTable (convertOf .numba))^[times] m.tables.rate)
  reactants : ∃ P d, writeReactantsPy m.tables.gen m.equations.toNat = .ok P ∧ '\n' ∉ d ∧
    f.reactants = fileText reactantsPyLayout num d m.tables.species.length m.equations.toNat P
  lossGain : ∃ d, '\n' ∉ d ∧ f.lossGain = fileText lossGainPyLayout num d m.tables.species.length m.equations.toNat
    (writeLossGainPy m.tables.gen)

/-- The files of the Fortran version (`/repo/f2py/Gas_simulation_f2py.py` 154–170). -/
structure GasFiles.WrittenFortran (f : GasFiles) (m : Mechanism) (cores : Option ℕ) (times : ℕ) (num : ℚ → Str) :
    Prop where
  rates : f.rates = ratesFile .fortran cores ((convertTable (convertOf .fortran))^[times] m.tables.rate)
  reactants : ∃ P d, writeReactantsF m.tables.gen m.equations.toNat cores = .ok P ∧ '\n' ∉ d ∧
    f.reactants = fileText reactantsFLayout num d m.tables.species.length m.equations.toNat P
  lossGain : ∃ d, '\n' ∉ d ∧ f.lossGain = fileText lossGainFLayout num d m.tables.species.length m.equations.toNat
    (writeLossGainF m.tables.gen m.tables.species.length cores)

/-- `dydt_func(t,y)` of the Python version (`/repo/ODE_solver.py` 82–109) from the files. `junk` are the values the
rate routine finds in memory. -/
noncomputable def dydtPython (f : GasFiles) (species reactions : ℕ) (indices : List ℕ) (junk : Vals)
    (start h2o temp time : ℝ) (y : ℕ → ℝ) : Option (ℕ → ℝ) :=
  (ro2Total indices y).bind (fun ro2 => (program .numba f.rates).bind (fun p =>
    rhsOfFiles reactantsPyFrame lossGainPyFrame species reactions f.reactants f.lossGain
      (generatedRates .numba p junk (start + time) ro2 h2o temp) y))

/-- `dydt_func(t,y)` of the Fortran version (`/repo/f2py/ODE_solver.py` 59–96) from the files. -/
noncomputable def dydtFortran (f : GasFiles) (species reactions : ℕ) (indices : List ℕ) (junk : Vals)
    (start h2o temp time : ℝ) (y : ℕ → ℝ) : Option (ℕ → ℝ) :=
  (ro2Total indices y).bind (fun ro2 => (program .fortran f.rates).bind (fun p =>
    rhsOfFiles reactantsFFrame lossGainFFrame species reactions f.reactants f.lossGain
      (generatedRates .fortran p junk (start + time) ro2 h2o temp) y))

/-- The rate coefficient of each reaction that its own text in the mechanism file, converted for the version,
stands for under the given conditions. -/
noncomputable def textRate (b : Backend) (convert : Str → Str) (qs : List RawEqn) (temp t ro2 h2o : ℝ) (e : ℕ) : ℝ :=
  ((qs[e]?.bind (fun q => readExpr b (convert q.rate))).map (fun x => x.val (conditions b temp t ro2 h2o))).getD 0

/-- `jacobian(t,y)` of the Python version (`/repo/ODE_solver.py` 153–173) from the rate file and the text of
`Jacobian_numba.py`. -/
noncomputable def jacPython (f : GasFiles) (jac : Str) (species reactions : ℕ) (indices : List ℕ) (junk : Vals)
    (start h2o temp time : ℝ) (y : ℕ → ℝ) : Option (ℕ × ℕ → ℝ) :=
  (ro2Total indices y).bind (fun ro2 => (program .numba f.rates).bind (fun p =>
    runFile jacobianPyFrame species reactions jac ⟨y, generatedRates .numba p junk (start + time) ro2 h2o temp⟩
      (fun _ => 0)))

/-- `F` is the function handed to the solver of the Python version, computed from the files. -/
def PythonSystem (f : GasFiles) (m : Mechanism) (junk : Vals) (start h2o temp : ℝ) {n : ℕ}
    (F : ℝ → (Fin n → ℝ) → Fin n → ℝ) : Prop :=
  n = m.tables.species.length ∧ ∀ (time : ℝ) (y : Fin n → ℝ), ∃ out,
    dydtPython f m.tables.species.length m.equations.toNat (ro2Indices m.tables.index) junk start h2o temp time
      (stateOf y) = some out ∧ ∀ i : Fin n, F time y i = out i

/-- `F` is the function handed to the solver of the Fortran version, computed from the files. -/
def FortranSystem (f : GasFiles) (m : Mechanism) (junk : Vals) (start h2o temp : ℝ) {n : ℕ}
    (F : ℝ → (Fin n → ℝ) → Fin n → ℝ) : Prop :=
  n = m.tables.species.length ∧ ∀ (time : ℝ) (y : Fin n → ℝ), ∃ out,
    dydtFortran f m.tables.species.length m.equations.toNat (ro2Indices m.tables.index) junk start h2o temp time
      (stateOf y) = some out ∧ ∀ i : Fin n, F time y i = out i

/-- No rate text mentions the peroxy radicals. -/
def NoRadicalRates (b : Backend) (convert : Str → Str) (qs : List RawEqn) : Prop :=
  ∀ q ∈ qs, ∀ e, readExpr b (convert q.rate) = some e → b.var "RO2" ∉ e.vars

end Spec

section

variable {text : Str} {m : Mechanism} {qs : List RawEqn} {cores : Option ℕ} {times : ℕ} {num : ℚ → Str}
  {f : GasFiles}

/-- **C73**: the files of the Python version compute the function that all statements about this version are about. -/
theorem C73_files_python (h : extractMechanism text = .ok m) (hw : Prints num id m.tables)
    (hf : f.WrittenPython m times num) {p : List Stmt} (hp : program .numba f.rates = some p) (indices : List ℕ)
    (junk : Vals) (start h2o temp time : ℝ) (y : ℕ → ℝ) :
    dydtPython f m.tables.species.length m.equations.toNat indices junk start h2o temp time y =
      dydtFunc m.tables m.equations.toNat indices (generatedRates .numba p junk) start h2o temp time y := by
  obtain ⟨-, ⟨P, d1, hP, hd1, e1⟩, ⟨d2, hd2, e2⟩⟩ := hf
  obtain ⟨P', hP', hgas⟩ := C70_rhs_python h hw m.tables.species.length
  rw [hP] at hP'
  obtain rfl : P = P' := by injection hP'
  unfold dydtPython dydtFunc
  refine Option.bind_congr (fun ro2 _ => ?_)
  rw [hp, Option.bind_some, e1, e2, hgas hd1 hd2]

/-- **C73**, Fortran version. -/
theorem C73_files_fortran (h : extractMechanism text = .ok m) (hw : Prints num id m.tables)
    (hf : f.WrittenFortran m cores times num) {p : List Stmt} (hp : program .fortran f.rates = some p)
    (indices : List ℕ) (junk : Vals) (start h2o temp time : ℝ) (y : ℕ → ℝ) :
    dydtFortran f m.tables.species.length m.equations.toNat indices junk start h2o temp time y =
      dydtFuncF m.tables m.equations.toNat m.tables.species.length cores indices (generatedRates .fortran p junk)
        start h2o temp time y := by
  obtain ⟨-, ⟨P, d1, hP, hd1, e1⟩, ⟨d2, hd2, e2⟩⟩ := hf
  obtain ⟨P', hP', hgas⟩ := C70_rhs_fortran h hw m.tables.species.length m.tables.species.length cores
  rw [hP] at hP'
  obtain rfl : P = P' := by injection hP'
  unfold dydtFortran dydtFuncF
  refine Option.bind_congr (fun ro2 _ => ?_)
  rw [hp, Option.bind_some, e1, e2, hgas hd1 hd2]

theorem textRate_eq {b : Backend} {convert : Str → Str} {e : ℕ} {q : RawEqn} {x : Ex} (hk : qs[e]? = some q)
    (hx : readExpr b (convert q.rate) = some x) (temp t ro2 h2o : ℝ) :
    textRate b convert qs temp t ro2 h2o e = x.val (conditions b temp t ro2 h2o) := by
  simp [textRate, hk, hx]

theorem generated_textRate (h : extractMechanism text = .ok m) (hq : Reads text m.equations.toNat qs) {b : Backend}
    (hb : b ≠ .python) (hread : ReadableRates b ((convertOf b)^[times]) qs) {p : List Stmt}
    (hp : program b (ratesFile b cores ((convertTable (convertOf b))^[times] m.tables.rate)) = some p)
    (junk : Vals) (temp t ro2 h2o : ℝ) {e : ℕ} (he : e < qs.length) :
    generatedRates b p junk t ro2 h2o temp e = textRate b ((convertOf b)^[times]) qs temp t ro2 h2o e := by
  obtain ⟨_, h1, v1⟩ := C66_value h hq hb cores hread
  rw [hp] at h1
  obtain rfl := Option.some.inj h1
  have hk := List.getElem?_eq_getElem he
  obtain ⟨x, hx, -⟩ := hread _ (List.getElem_mem he)
  rw [(v1 junk temp t ro2 h2o).1 e _ x hk hx, textRate_eq hk hx]

theorem rateLaw_congr {conc : Str → ℝ} {K K' : ℕ → ℝ} (hK : ∀ e < qs.length, K e = K' e) (s : Str) :
    rateLaw qs conc K s = rateLaw qs conc K' s := by
  unfold rateLaw
  refine congrArg List.sum (List.map_congr_left fun p hp => ?_)
  have := List.snd_lt_of_mem_zipIdx hp
  rw [hK p.2 (by omega)]

/-- **C73**: from the mechanism file to the right-hand side. The generated Python files compute, for every species,
the rate law of the mechanism, where every reaction has the rate coefficient that its own text stands for. -/
theorem C73_rate_law_python (h : extractMechanism text = .ok m) (hq : Reads text m.equations.toNat qs)
    (hreg : ∀ q ∈ qs, Regular q) (hrad : ∃ s ∈ ro2Names, (m.tables.index.get? s).isSome)
    (hn : ∀ s ∈ lostRadicals ++ damagedEntries, m.tables.index.get? s = none) (hw : Prints num id m.tables)
    (hf : f.WrittenPython m times num) (hread : ReadableRates .numba ((convertOf .numba)^[times]) qs)
    (junk : Vals) (start h2o temp time : ℝ) (y : ℕ → ℝ) :
    ∃ out, dydtPython f m.tables.species.length m.equations.toNat (ro2Indices m.tables.index) junk start h2o temp time y =
        some out ∧
      ∀ s i, m.tables.index.get? s = some i → out i = if s ∈ heldConstant then 0 else
        rateLaw qs (concOf m.tables y) (textRate .numba ((convertOf .numba)^[times]) qs temp (start + time)
          (radicalSum m.tables.index y) h2o) s := by
  obtain ⟨p, hp, -⟩ := C66_value h hq (b := .numba) (by decide) none hread
  obtain ⟨out, ho, hv⟩ := C55_kinetics_partial h hq hreg hrad hn (generatedRates .numba p junk) start h2o temp time y
  refine ⟨out, ?_, fun s i hs => ?_⟩
  · rw [C73_files_python h hw hf (hf.rates ▸ hp), ho]
  · rw [hv s i hs]
    split
    · rfl
    · exact rateLaw_congr (fun e he => generated_textRate h hq (by decide) hread hp junk temp _ _ h2o he) s

/-- Where no coefficient is altered, the Fortran right-hand side is the Python right-hand side. -/
theorem gasRhsF_eq (h : extractMechanism text = .ok m) (hq : Reads text m.equations.toNat qs)
    (hall : AllWritten m) (hsame : SameNet m) (n : ℕ) (cores : Option ℕ) (k y : ℕ → ℝ) :
    gasRhsF m.tables m.equations.toNat n cores (fun _ => 0) (fun _ => 0) k y =
      gasRhs m.tables m.equations.toNat k y := by
  have hv : ∀ env, (exec .python env (writeLossGainPy m.tables.gen) (fun _ => 0)).isSome := by
    intro env
    exact (C18_valid_iff h env _).2 hall
  have hvF : ∀ env, (exec .fortran env (writeLossGainF m.tables.gen n cores) (fun _ => 0)).isSome := by
    intro env
    rw [C18_valid_iff_fortran h, ← C18_valid_iff h env (fun _ => 0)]
    exact hv env
  obtain ⟨P, hP, -⟩ := C10_value h hq
  obtain ⟨F, hF, hPF⟩ := (C11_same_programs m.tables.gen m.equations.toNat cores).2 P hP
  unfold gasRhsF gasRhs
  rw [hP, hF]
  dsimp only
  rw [hPF]
  refine Option.bind_congr fun r _ => ?_
  obtain ⟨a, ha⟩ := Option.isSome_iff_exists.1 (hv ⟨y, fun e => r e * k e⟩)
  obtain ⟨b, hb⟩ := Option.isSome_iff_exists.1 (hvF ⟨y, fun e => r e * k e⟩)
  rw [ha, hb, (C13_exact h n cores hv).2 hsame _ a b ha hb]

/-- **C73**, Fortran version, for mechanisms in which the Fortran writer leaves the net coefficients right
(`C13_exact`). -/
theorem C73_rate_law_fortran (h : extractMechanism text = .ok m) (hq : Reads text m.equations.toNat qs)
    (hreg : ∀ q ∈ qs, Regular q) (hsame : SameNet m) (hrad : ∃ s ∈ ro2Names, (m.tables.index.get? s).isSome)
    (hn : ∀ s ∈ lostRadicals ++ damagedEntries, m.tables.index.get? s = none) (hw : Prints num id m.tables)
    (hf : f.WrittenFortran m cores times num) (hread : ReadableRates .fortran ((convertOf .fortran)^[times]) qs)
    (junk : Vals) (start h2o temp time : ℝ) (y : ℕ → ℝ) :
    ∃ out, dydtFortran f m.tables.species.length m.equations.toNat (ro2Indices m.tables.index) junk start h2o temp time y =
        some out ∧
      ∀ s i, m.tables.index.get? s = some i → out i = if s ∈ heldConstant then 0 else
        rateLaw qs (concOf m.tables y) (textRate .fortran ((convertOf .fortran)^[times]) qs temp (start + time)
          (radicalSum m.tables.index y) h2o) s := by
  obtain ⟨p, hp, -⟩ := C66_value h hq (b := .fortran) (by decide) cores hread
  obtain ⟨out, ho, hv⟩ := C55_kinetics_partial h hq hreg hrad hn (generatedRates .fortran p junk) start h2o temp time y
  refine ⟨out, ?_, fun s i hs => ?_⟩
  · rw [C73_files_fortran h hw hf (hf.rates ▸ hp), ← ho]
    unfold dydtFuncF dydtFunc
    refine Option.bind_congr fun r _ => gasRhsF_eq h hq (allWritten_of_good h hq fun q hq => (hreg q hq).gain) hsame _ _ _ _
  · rw [hv s i hs]
    split
    · rfl
    · exact rateLaw_congr (fun e he => generated_textRate h hq (by decide) hread hp junk temp _ _ h2o he) s

/-- C73: the system handed to the solver is the one of the statements about gas simulations. -/
theorem C73_system_python (h : extractMechanism text = .ok m) (hw : Prints num id m.tables)
    (hf : f.WrittenPython m times num) {p : List Stmt} (hp : program .numba f.rates = some p) {junk : Vals}
    {start h2o temp : ℝ} {n : ℕ} {F : ℝ → (Fin n → ℝ) → Fin n → ℝ} :
    PythonSystem f m junk start h2o temp F ↔ GasSystem m (generatedRates .numba p junk) start h2o temp F := by
  refine and_congr Iff.rfl (forall_congr' fun t => forall_congr' fun y => ?_)
  rw [C73_files_python h hw hf hp]

/-- C73, the same for the Fortran version. -/
theorem C73_system_fortran (h : extractMechanism text = .ok m) (hw : Prints num id m.tables)
    (hf : f.WrittenFortran m cores times num) {p : List Stmt} (hp : program .fortran f.rates = some p) {junk : Vals}
    {start h2o temp : ℝ} {n : ℕ} {F : ℝ → (Fin n → ℝ) → Fin n → ℝ} :
    FortranSystem f m junk start h2o temp F ↔
      GasSystemF m cores (generatedRates .fortran p junk) start h2o temp F := by
  unfold FortranSystem GasSystemF
  constructor
  · rintro ⟨rfl, hF⟩
    refine ⟨rfl, fun t y => ?_⟩
    rw [← C73_files_fortran h hw hf hp]
    exact hF t y
  · rintro ⟨rfl, hF⟩
    refine ⟨rfl, fun t y => ?_⟩
    rw [C73_files_fortran h hw hf hp]
    exact hF t y

/-- Values in memory do not matter. -/
theorem Spec.GasSystem.congr (h : extractMechanism text = .ok m) (hq : Reads text m.equations.toNat qs)
    {rates rates' : Rates} {start h2o temp : ℝ} {n : ℕ}
    {F : ℝ → (Fin n → ℝ) → Fin n → ℝ} (hF : GasSystem m rates start h2o temp F)
    (hr : ∀ t r e, e < qs.length → rates t r h2o temp e = rates' t r h2o temp e) :
    GasSystem m rates' start h2o temp F := by
  have hsome : ∀ t (y : Fin n → ℝ), (dydtFunc m.tables m.equations.toNat (ro2Indices m.tables.index) rates'
      start h2o temp t (stateOf y)).isSome := by
    intro t y
    obtain ⟨out, ho, -⟩ := hF.2 t y
    unfold dydtFunc at ho ⊢
    cases hr : ro2Total (ro2Indices m.tables.index) (stateOf y) with
    | none => rw [hr] at ho; cases ho
    | some r =>
      rw [hr, Option.bind_some] at ho
      rw [Option.bind_some, gasRhs_isSome_iff h]
      exact (gasRhs_isSome_iff h _ _).1 (Option.isSome_iff_exists.2 ⟨out, ho⟩)
  have hF' : GasSystem m rates' start h2o temp (fun t y (i : Fin n) => (Option.get _ (hsome t y)) i) :=
    ⟨hF.1, fun t y => ⟨_, (Option.some_get (hsome t y)).symm, fun _ => rfl⟩⟩
  rwa [(hF.kinetic h hq).eq h (hF'.kinetic h hq) (fun _ _ _ _ _ => rfl) hr]

/-- The system given by the Python files is one of the model, with regular rate coefficients. -/
theorem python_system (h : extractMechanism text = .ok m) (hq : Reads text m.equations.toNat qs)
    (hw : Prints num id m.tables)
    (hf : f.WrittenPython m times num) (hread : ReadableRates .numba ((convertOf .numba)^[times]) qs)
    {junk : Vals} {start h2o temp : ℝ} {n : ℕ} {F : ℝ → (Fin n → ℝ) → Fin n → ℝ}
    (hF : PythonSystem f m junk start h2o temp F) :
    ∃ rates, GasSystem m rates start h2o temp F ∧
      (NonnegRates .numba ((convertOf .numba)^[times]) qs h2o temp → PiecewiseRates rates start h2o temp) := by
  obtain ⟨p, hp, -⟩ := C66_value h hq (b := .numba) (by decide) none hread
  refine ⟨generatedRates .numba p (fun _ => 0), ?_, fun hnn =>
    C66_piecewise h hq (by decide) hread hp (fun _ => le_refl _) start hnn⟩
  refine ((C73_system_python h hw hf (hf.rates ▸ hp)).1 hF).congr h hq fun t r e he => ?_
  rw [generated_textRate h hq (by decide) hread hp junk temp _ _ h2o he,
    generated_textRate h hq (by decide) hread hp (fun _ => 0) temp _ _ h2o he]

section Runs

variable {junk : Vals} {start h2o temp : ℝ} {n : ℕ} {F : ℝ → (Fin n → ℝ) → Fin n → ℝ}

/-- C73, both versions: the files of the Python version and the files of the Fortran version give the solver the same
system of equations, whatever is in memory and however many cores the Fortran files are for. -/
theorem C73_same_system (h : extractMechanism text = .ok m) (hq : Reads text m.equations.toNat qs) (hsame : SameNet m)
    (hw : Prints num id m.tables) (hf : f.WrittenPython m times num)
    (hread : ReadableRates .numba ((convertOf .numba)^[times]) qs) (hF : PythonSystem f m junk start h2o temp F)
    {cores : Option ℕ} {times' : ℕ} {num' : ℚ → Str} {f' : GasFiles} {junk' : Vals} (hw' : Prints num' id m.tables)
    (hf' : f'.WrittenFortran m cores times' num') {F' : ℝ → (Fin n → ℝ) → Fin n → ℝ}
    (hread' : ReadableRates .fortran ((convertOf .fortran)^[times']) qs)
    (hexp : SameExpressions ((convertOf .numba)^[times]) ((convertOf .fortran)^[times']) qs)
    (hF' : FortranSystem f' m junk' start h2o temp F') : F = F' := by
  obtain ⟨p, hp, -⟩ := C66_value h hq (b := .numba) (by decide) none hread
  obtain ⟨p', hp', -⟩ := C66_value h hq (b := .fortran) (by decide) cores hread'
  exact C68_same_system h hq hsame hread hread' hexp hp hp' ((C73_system_python h hw hf (hf.rates ▸ hp)).1 hF)
    ((C73_system_fortran h hw' hf' (hf'.rates ▸ hp')).1 hF')

/-- C73, reported results: with exact solvers the files of both versions give the same times and rows. -/
theorem C73_same_rows (h : extractMechanism text = .ok m) (hq : Reads text m.equations.toNat qs)
    (hsame : SameNet m)
    (hpos : ∀ q ∈ qs, ∀ p ∈ chemReactants q ++ chemProducts q, 0 < p.1) (hone : WholeReactants qs)
    (hw : Prints num id m.tables) (hf : f.WrittenPython m times num)
    (hread : ReadableRates .numba ((convertOf .numba)^[times]) qs)
    (hnn : NonnegRates .numba ((convertOf .numba)^[times]) qs h2o temp) (hF : PythonSystem f m junk start h2o temp F)
    {cores : Option ℕ} {times' : ℕ} {num' : ℚ → Str} {f' : GasFiles} {junk' : Vals} (hw' : Prints num' id m.tables)
    (hf' : f'.WrittenFortran m cores times' num') {F' : ℝ → (Fin n → ℝ) → Fin n → ℝ}
    (hread' : ReadableRates .fortran ((convertOf .fortran)^[times']) qs)
    (hexp : SameExpressions ((convertOf .numba)^[times]) ((convertOf .fortran)^[times']) qs)
    (hF' : FortranSystem f' m junk' start h2o temp F')
    {solve solve' : (Fin n → ℝ) → ℚ → Fin n → ℝ} {sim batch : ℚ} (hs : 0 < sim) (hb : 0 < batch)
    {zero y0 : Fin n → ℝ} (hy0 : ∀ i, 0 ≤ y0 i) {ts ts' : List ℚ} {rows rows' : List (Fin n → ℝ)}
    (hrun : runSimulation id solve zero y0 sim batch = .ok (ts, rows))
    (hrun' : runSimulation id solve' zero y0 sim batch = .ok (ts', rows'))
    (hex : ExactBatches F solve batch y0 rows.length)
    (hex' : ExactBatches F' solve' batch y0 rows'.length) : ts = ts' ∧ rows = rows' := by
  obtain rfl := C73_same_system h hq hsame hw hf hread hF hw' hf' hread' hexp hF'
  obtain ⟨rates, hA, hr⟩ := python_system h hq hw hf hread hF
  exact C61_unique h hq hpos hone (hr hnn) hA hs hb hy0 hrun hrun' hex hex'

/-- C73, existence: the system given by the Python files has an exact solver. -/
theorem C73_exists (h : extractMechanism text = .ok m) (hq : Reads text m.equations.toNat qs)
    (hpos : ∀ q ∈ qs, ∀ p ∈ chemReactants q ++ chemProducts q, 0 < p.1) (hone : WholeReactants qs)
    (hweight : ∀ s i, m.tables.index.get? s = some i → s ∉ heldConstant → ∃ w : Str → ℝ,
      (∀ s, 0 ≤ w s) ∧ 0 < w s ∧ (∀ s ∈ heldConstant, w s = 0) ∧ ∀ q ∈ qs, NotGained w q)
    (hw : Prints num id m.tables) (hf : f.WrittenPython m times num)
    (hread : ReadableRates .numba ((convertOf .numba)^[times]) qs)
    (hnn : NonnegRates .numba ((convertOf .numba)^[times]) qs h2o temp) (hF : PythonSystem f m junk start h2o temp F)
    {batch : ℚ} (hb : 0 < batch) :
    ∃ solve : (Fin n → ℝ) → ℚ → Fin n → ℝ, ∀ y0, (∀ i, 0 ≤ y0 i) → ∀ k, ExactBatches F solve batch y0 k := by
  obtain ⟨rates, hA, hr⟩ := python_system h hq hw hf hread hF
  exact C61_exists h hq hpos hone hweight (hr hnn) hA hb

/-- C73, amounts and signs: with exact solver calls the Python files conserve every total the mechanism conserves and
give no negative concentrations. -/
theorem C73_results (h : extractMechanism text = .ok m) (hq : Reads text m.equations.toNat qs)
    (hpos : ∀ q ∈ qs, ∀ p ∈ chemReactants q ++ chemProducts q, 0 < p.1) (hone : WholeReactants qs)
    (hw : Prints num id m.tables) (hf : f.WrittenPython m times num)
    (hread : ReadableRates .numba ((convertOf .numba)^[times]) qs)
    (hnn : NonnegRates .numba ((convertOf .numba)^[times]) qs h2o temp) (hF : PythonSystem f m junk start h2o temp F)
    {solve : (Fin n → ℝ) → ℚ → Fin n → ℝ} {sim batch : ℚ} (hs : 0 < sim) (hb : 0 < batch)
    {zero y0 : Fin n → ℝ} (hy0 : ∀ i, 0 ≤ y0 i) {ts : List ℚ} {rows : List (Fin n → ℝ)}
    (hrun : runSimulation id solve zero y0 sim batch = .ok (ts, rows))
    (hex : ExactBatches F solve batch y0 rows.length) :
    ∀ row ∈ rows, (∀ i, 0 ≤ row i) ∧
      ((∀ q ∈ qs, GainGood q) → ∀ w : Str → ℝ, (∀ q ∈ qs, Spec.Balanced w q) → (∀ s ∈ heldConstant, w s = 0) →
      weightedTotal m w (stateOf row) = weightedTotal m w (stateOf y0)) := by
  obtain ⟨rates, hA, hr⟩ := python_system h hq hw hf hread hF
  exact fun row hrow => ⟨C60_nonneg h hq hpos hone (hr hnn).regular hA hs hb hy0 hrun hex row hrow,
    fun hg w hbal hconst => C59_conserved h hq hg w hbal hconst hA hs hb hrun hex row hrow⟩

end Runs

/-! ### The Jacobian -/

/-- C73: the text of `Jacobian_numba.py` with the rate file computes the modelled Jacobian. -/
theorem C73_jacobian_file (hw : Prints num id m.tables) {ord : SetOrder} {P : List (Line (ℕ × ℕ))}
    (hP : writeJacobianPy m.tables.gen ord = .ok P) {d : Str} (hd : '\n' ∉ d) {p : List Stmt}
    (hp : program .numba f.rates = some p) (indices : List ℕ) (junk : Vals) (start h2o temp time : ℝ) (y : ℕ → ℝ) :
    jacPython f (fileText jacobianPyLayout num d m.tables.species.length m.equations.toNat P) m.tables.species.length
        m.equations.toNat indices junk start h2o temp time y =
      jacFunc P indices (generatedRates .numba p junk) start h2o temp time y := by
  unfold jacPython jacFunc
  refine Option.bind_congr fun r _ => ?_
  rw [hp, Option.bind_some, C70_jacobian_python hw hP hd, map_renum_id]

theorem conditions_radicals {b : Backend} {v : Var} (hv : v ≠ b.var "RO2") (T t r r' h : ℝ) :
    conditions b T t r h v = conditions b T t r' h v := by
  unfold conditions
  split
  · rfl
  · rw [if_neg hv, if_neg hv]

/-- **C73**, derivative: if no rate text mentions the peroxy radicals, the entries of the generated Jacobian file are
the partial derivatives of the function computed from the generated files. -/
theorem C73_jacobian (h : extractMechanism text = .ok m) (hq : Reads text m.equations.toNat qs)
    (hw : Prints num id m.tables) (hf : f.WrittenPython m times num)
    (hread : ReadableRates .numba ((convertOf .numba)^[times]) qs)
    (hno : NoRadicalRates .numba ((convertOf .numba)^[times]) qs)
    {ord : SetOrder} (ho : ord.Valid) {P : List (Line (ℕ × ℕ))} (hP : writeJacobianPy m.tables.gen ord = .ok P)
    {d : Str} (hd : '\n' ∉ d) {junk : Vals} {start h2o temp time : ℝ} {g : (ℕ → ℝ) → ℕ → ℝ}
    (hg : ∀ y, dydtPython f m.tables.species.length m.equations.toNat (ro2Indices m.tables.index) junk start h2o temp
      time y = some (g y)) {y : ℕ → ℝ} {J : ℕ × ℕ → ℝ}
    (hJ : jacPython f (fileText jacobianPyLayout num d m.tables.species.length m.equations.toNat P)
      m.tables.species.length m.equations.toNat (ro2Indices m.tables.index) junk start h2o temp time y = some J)
    {s x : Str} {i j : ℕ} (hs : m.tables.index.get? s = some i) (hxj : m.tables.index.get? x = some j)
    (hx : s ∉ heldConstant)
    (hgood : ∀ e q, qs[e]? = some q → x ∈ names (chemReactants q) →
      (cell m.tables.gain s e ≠ none ∨ cell m.tables.loss s e ≠ none) → Spec.Differentiable m.tables q s x e) :
    HasDerivAt (fun v => g (Function.update y j v) i) (J (i, j)) (y j) := by
  obtain ⟨p, hp, hval⟩ := C66_value h hq (b := .numba) (by decide) none hread
  have hp' := hf.rates ▸ hp
  rw [C73_jacobian_file hw hP hd hp'] at hJ
  refine C56_jacobian_partial h hq ho hP (fun r r' e => ?_)
    (fun y => (C73_files_python h hw hf hp' _ junk start h2o temp time y).symm.trans (hg y)) hJ hs hxj hx hgood
  by_cases he : e < qs.length
  · have hk := List.getElem?_eq_getElem he
    obtain ⟨z, hz, -⟩ := hread _ (List.getElem_mem he)
    rw [(hval junk temp _ r h2o).1 e _ z hk hz, (hval junk temp _ r' h2o).1 e _ z hk hz]
    refine Ex.val_congr z fun v hv => conditions_radicals ?_ temp _ r r' h2o
    rintro rfl
    exact hno _ (List.getElem_mem he) z hz hv
  · rw [(hval junk temp _ r h2o).2 e (by omega), (hval junk temp _ r' h2o).2 e (by omega)]

end

/-! ### A case the theorems apply to -/

/-- The files of the Python version for `radicalText`. -/
def radicalPython : GasFiles where
  rates := ratesFile .numba none ((convertTable (convertOf .numba))^[1] (build radicalReactions).rate)
  reactants := match writeReactantsPy (build radicalReactions).gen 2 with
    | .ok P => fileText reactantsPyLayout shortNum [] 5 2 P
    | .error _ => []
  lossGain := fileText lossGainPyLayout shortNum [] 5 2 (writeLossGainPy (build radicalReactions).gen)

/-- The files of the Fortran version for `radicalText` and two cores. -/
def radicalFortran : GasFiles where
  rates := ratesFile .fortran (some 2) ((convertTable (convertOf .fortran))^[2] (build radicalReactions).rate)
  reactants := match writeReactantsF (build radicalReactions).gen 2 (some 2) with
    | .ok P => fileText reactantsFLayout shortNum [] 5 2 P
    | .error _ => []
  lossGain := fileText lossGainFLayout shortNum [] 5 2 (writeLossGainF (build radicalReactions).gen 5 (some 2))

theorem radical_prints : Prints shortNum id (build radicalReactions) :=
  shortNum_prints (by decide +kernel) (by decide +kernel)

theorem radical_five : (build radicalReactions).species.length = 5 := by decide +kernel

theorem radicalPython_written : radicalPython.WrittenPython ⟨build radicalReactions, 2⟩ 1 shortNum where
  rates := rfl
  reactants := by
    obtain ⟨P, hP, -⟩ := C70_rhs_python radical_parses radical_prints 5
    refine ⟨P, [], hP, by simp, ?_⟩
    have hP' : writeReactantsPy (build radicalReactions).gen 2 = .ok P := hP
    show (match writeReactantsPy (build radicalReactions).gen 2 with
      | .ok P => fileText reactantsPyLayout shortNum [] 5 2 P
      | .error _ => []) = fileText reactantsPyLayout shortNum [] (build radicalReactions).species.length 2 P
    rw [hP', radical_five]
  lossGain := ⟨[], by simp, by rw [radical_five]; rfl⟩

theorem radicalFortran_written : radicalFortran.WrittenFortran ⟨build radicalReactions, 2⟩ (some 2) 2 shortNum where
  rates := rfl
  reactants := by
    obtain ⟨P, hP, -⟩ := C70_rhs_fortran radical_parses radical_prints 5 5 (some 2)
    refine ⟨P, [], hP, by simp, ?_⟩
    have hP' : writeReactantsF (build radicalReactions).gen 2 (some 2) = .ok P := hP
    show (match writeReactantsF (build radicalReactions).gen 2 (some 2) with
      | .ok P => fileText reactantsFLayout shortNum [] 5 2 P
      | .error _ => []) = fileText reactantsFLayout shortNum [] (build radicalReactions).species.length 2 P
    rw [hP', radical_five]
  lossGain := ⟨[], by simp, by rw [radical_five]; rfl⟩

/-- All hypotheses are met by the files of `radicalText`, with anything in memory: both versions have a system and
there are exact solvers with which both report the same rows. -/
theorem radical_gas_files (junk junk' : Vals) {start h2o temp : ℝ} (hT : 0 < temp) (hh : 0 ≤ h2o) :
    ∃ (F F' : ℝ → (Fin 5 → ℝ) → Fin 5 → ℝ) (solve solve' : (Fin 5 → ℝ) → ℚ → Fin 5 → ℝ),
      PythonSystem radicalPython ⟨build radicalReactions, 2⟩ junk start h2o temp F ∧
      FortranSystem radicalFortran ⟨build radicalReactions, 2⟩ junk' start h2o temp F' ∧
      ∀ y0 : Fin 5 → ℝ, (∀ i, 0 ≤ y0 i) →
        (∀ k, ExactBatches F solve 60 y0 k) ∧ (∀ k, ExactBatches F' solve' 60 y0 k) ∧
        ∃ rows, runSimulation id solve (fun _ => 0) y0 (((2 : ℕ) : ℚ) * 60) 60 = .ok ([60, 120], rows) ∧
          runSimulation id solve' (fun _ => 0) y0 (((2 : ℕ) : ℚ) * 60) 60 = .ok ([60, 120], rows) ∧
          ∀ row ∈ rows, ∀ i, 0 ≤ row i := by
  obtain ⟨c1, c2, c3⟩ := radical_rates
  obtain ⟨n1, n2⟩ := rateTextCheck_reads c1
  obtain ⟨f1, f2⟩ := rateTextCheck_reads c2
  have hexp : SameExpressions ((convertOf .numba)^[1]) ((convertOf .fortran)^[2]) radicalReactions := by
    intro q hq e e' he he'
    have := c3 q hq
    rw [he, he'] at this
    exact Option.some.inj this
  have hg : ∀ q ∈ radicalReactions, GainGood q := fun q hq => (radical_regular q hq).gain
  obtain ⟨p, hp, -⟩ := C66_value radical_parses radical_reads (b := .numba) (by decide) none n1
  obtain ⟨p', hp', -⟩ := C66_value radical_parses radical_reads (b := .fortran) (by decide) (some 2) f1
  obtain ⟨F, hF0⟩ := radical_system (generatedRates .numba p junk) start h2o temp
  obtain ⟨F', hF0'⟩ := radical_systemF (some 2) (generatedRates .fortran p' junk') start h2o temp
  have hF := (C73_system_python radical_parses radical_prints radicalPython_written hp).2 hF0
  have hF' := (C73_system_fortran radical_parses radical_prints radicalFortran_written hp').2 hF0'
  have hnn := C66_nonneg (by decide) n1 n2 hT hh
  have hFF := C73_same_system radical_parses radical_reads radical_sameNet radical_prints radicalPython_written n1 hF
    radical_prints radicalFortran_written f1 hexp hF'
  obtain ⟨solve, hs⟩ := C73_exists radical_parses radical_reads radical_positive.1 radical_positive.2
    radical_weights radical_prints radicalPython_written n1 hnn hF (batch := 60) (by norm_num)
  refine ⟨F, F', solve, solve, hF, hF', fun y0 hy0 => ⟨hs y0 hy0, hFF ▸ hs y0 hy0, ?_⟩⟩
  obtain ⟨rows, hrun, -⟩ := radical_batches solve y0
  exact ⟨rows, hrun, hrun, fun row hrow => (C73_results radical_parses radical_reads radical_positive.1
    radical_positive.2 radical_prints radicalPython_written n1 hnn hF (by norm_num) (by norm_num) hy0 hrun
    (hs y0 hy0 _) row hrow).1⟩

/-- The hypotheses of the rate law and of the Jacobian are met as well. -/
example : (∀ q ∈ radicalReactions, Regular q) ∧ SameNet ⟨build radicalReactions, 2⟩ ∧
    (∃ s ∈ ro2Names, ((build radicalReactions).index.get? s).isSome) ∧
    (∀ s ∈ lostRadicals ++ damagedEntries, (build radicalReactions).index.get? s = none) ∧
    NoRadicalRates .numba ((convertOf .numba)^[1]) radicalReactions := by
  refine ⟨radical_regular, radical_sameNet, ⟨"CH3O2".toList, by decide +kernel⟩, by decide +kernel, ?_⟩
  have : ∀ q ∈ radicalReactions, ((readExpr .numba ((convertOf .numba)^[1] q.rate)).map
      (fun e => decide (Backend.numba.var "RO2" ∉ e.vars))).getD true = true := by decide +kernel
  intro q hq e he
  have := this q hq
  rw [he] at this
  simpa using this

end PyBox
