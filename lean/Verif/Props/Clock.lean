import Verif.Props.DividedBins

/-!
# C107: the clock of a simulation

The right-hand sides take the time of day as `start_time+t` (`/repo/ODE_solver.py` 83,
`/repo/f2py/ODE_solver.py` and `/repo/Aerosol/f2py/ODE_solver.py` 72), and the loop over the batches hands the solver times that begin at zero in every
batch. When this matters for the reported concentrations is shown here from the texts of the generated files.
-/

namespace PyBox

open Set Spec Aerosol Rl

namespace Spec

/-- No rate text mentions a photolysis rate. -/
def Sunless (b : Backend) (convert : Str → Str) (qs : List RawEqn) : Prop :=
  ∀ q ∈ qs, ∀ e, readExpr b (convert q.rate) = some e → ∀ v ∈ e.vars, v ∉ photolysisTable.map fun r => b.slot r.1

/-- Beginning the time again with every batch makes no difference: the batches last whole days, or there is no
photolysis. -/
def ClockHarmless (b : Backend) (convert : Str → Str) (qs : List RawEqn) (batch : ℚ) : Prop :=
  (∃ days : ℕ, batch = 86400 * days) ∨ Sunless b convert qs

end Spec

attribute [local irreducible] rateProgram

/-! ## Rate coefficients -/

theorem conditions_day (b : Backend) (T t r h : ℝ) (k : ℤ) :
    conditions b T (t + 86400 * k) r h = conditions b T t r h := by
  funext v
  unfold conditions
  cases photolysisTable.find? (fun row => decide (v = b.slot row.1)) with
  | some row => exact photolysis_day t k _ _ _
  | none => rfl

theorem conditions_sunless {b : Backend} {v : Var} (hv : v ∉ photolysisTable.map fun r => b.slot r.1) (T t t' r h : ℝ) :
    conditions b T t r h v = conditions b T t' r h v := by
  unfold conditions
  cases hf : photolysisTable.find? (fun row => decide (v = b.slot row.1)) with
  | some row =>
    have := List.find?_some hf
    exact absurd (List.mem_map.2 ⟨row, List.mem_of_find?_eq_some hf, (of_decide_eq_true this).symm⟩) hv
  | none => rfl

section

variable {text : Str} {m : Mechanism} {qs : List RawEqn} {b : Backend} {cores : Option ℕ} {conv : ℕ} {p : List Stmt}

theorem generated_time (h : extractMechanism text = .ok m) (hq : Reads text m.equations.toNat qs) (hb : b ≠ .python)
    (hread : ReadableRates b ((convertOf b)^[conv]) qs)
    (hp : program b (ratesFile b cores ((convertTable (convertOf b))^[conv] m.tables.rate)) = some p) (junk : Vals) {t t' : ℝ}
    (hv : ∀ q ∈ qs, ∀ e, readExpr b ((convertOf b)^[conv] q.rate) = some e → ∀ v ∈ e.vars, ∀ r h2o T,
      conditions b T t r h2o v = conditions b T t' r h2o v) :
    generatedRates b p junk t = generatedRates b p junk t' := by
  obtain ⟨p', hp', hval⟩ := C66_value h hq hb cores hread
  rw [hp] at hp'
  obtain rfl := Option.some.inj hp'
  funext r h2o T e
  by_cases he : e < qs.length
  · have hk : qs[e]? = some qs[e] := List.getElem?_eq_getElem he
    obtain ⟨x, hx, -⟩ := hread _ (List.getElem_mem he)
    rw [(hval junk T t r h2o).1 e _ x hk hx, (hval junk T t' r h2o).1 e _ x hk hx]
    exact Ex.val_congr x fun v hv' => hv _ (List.getElem_mem he) x hx v hv' _ _ _
  · rw [(hval junk T t r h2o).2 e (not_lt.1 he), (hval junk T t' r h2o).2 e (not_lt.1 he)]

/-- **C107**: the rate coefficients repeat every day. -/
theorem C107_rates_day (h : extractMechanism text = .ok m) (hq : Reads text m.equations.toNat qs) (hb : b ≠ .python)
    (hread : ReadableRates b ((convertOf b)^[conv]) qs)
    (hp : program b (ratesFile b cores ((convertTable (convertOf b))^[conv] m.tables.rate)) = some p) (junk : Vals) (t : ℝ)
    (days : ℤ) : generatedRates b p junk (t + 86400 * days) = generatedRates b p junk t :=
  generated_time h hq hb hread hp junk fun _ _ _ _ v _ r h2o T => congrFun (conditions_day b T t r h2o days) v

theorem rates_repeat (h : extractMechanism text = .ok m) (hq : Reads text m.equations.toNat qs) (hb : b ≠ .python)
    (hread : ReadableRates b ((convertOf b)^[conv]) qs)
    (hp : program b (ratesFile b cores ((convertTable (convertOf b))^[conv] m.tables.rate)) = some p) (junk : Vals)
    {batch : ℚ} (hc : ClockHarmless b ((convertOf b)^[conv]) qs batch) (t : ℝ) :
    generatedRates b p junk (t + batch) = generatedRates b p junk t := by
  rcases hc with ⟨days, rfl⟩ | hc
  · have := C107_rates_day h hq hb hread hp junk t days
    push_cast at this ⊢
    exact this
  · exact generated_time h hq hb hread hp junk fun q hq e he v hv _ _ _ => conditions_sunless (hc q hq e he v hv) _ _ _ _ _

end

/-! ## Right-hand sides -/

section

variable {m : Mechanism} {cores : Option ℕ} {L : Aerosol.Layout} {C : AeroConst} {rates : Rates} {start start' h2o temp : ℝ}
  {n : ℕ} {F F' : ℝ → (Fin n → ℝ) → Fin n → ℝ} {t t' : ℝ}

theorem Spec.GasSystem.same (hF : GasSystem m rates start h2o temp F) (hF' : GasSystem m rates start' h2o temp F')
    (hr : rates (start + t) = rates (start' + t')) : F t = F' t' := by
  funext y i
  obtain ⟨o, h1, h2⟩ := hF.2 t y
  obtain ⟨o', h1', h2'⟩ := hF'.2 t' y
  unfold dydtFunc at h1 h1'
  rw [hr, h1'] at h1
  rw [h2, h2', Option.some.inj h1]

theorem Spec.GasSystemF.same (hF : GasSystemF m cores rates start h2o temp F)
    (hF' : GasSystemF m cores rates start' h2o temp F') (hr : rates (start + t) = rates (start' + t')) : F t = F' t' := by
  funext y i
  obtain ⟨o, h1, h2⟩ := hF.2 t y
  obtain ⟨o', h1', h2'⟩ := hF'.2 t' y
  unfold dydtFuncF at h1 h1'
  rw [hr, h1'] at h1
  rw [h2, h2', Option.some.inj h1]

theorem Spec.AerosolSystem.same (hF : AerosolSystem m cores L C rates start h2o F)
    (hF' : AerosolSystem m cores L C rates start' h2o F') (hr : rates (start + t) = rates (start' + t')) : F t = F' t' := by
  funext y i
  obtain ⟨o, h1, h2⟩ := hF.2 t y
  obtain ⟨o', h1', h2'⟩ := hF'.2 t' y
  unfold aerosolRhs at h1 h1'
  rw [hr, h1'] at h1
  rw [h2, h2', Option.some.inj h1]

end

/-! ## Runs -/

section

variable {ι : Type} [Fintype ι] {F : ℝ → (ι → ℝ) → ι → ℝ}

theorem SolvesOn.later {W : ℝ → ι → ℝ} {a d T : ℝ} (hW : SolvesOn F W 0 T) (ha : 0 ≤ a) (hT : a + d ≤ T)
    (hF : ∀ t, F (a + t) = F t) : SolvesOn F (fun t => W (a + t)) 0 d := by
  obtain ⟨h1, S, hS, h2⟩ := hW
  refine ⟨h1.comp (by fun_prop) fun t ht => ⟨by linarith [ht.1], by linarith [ht.2]⟩, (fun t => a + t) ⁻¹' S,
    hS.preimage (add_right_injective a).injOn, fun t ht htS => ?_⟩
  have e : HasDerivWithinAt (fun s => a + s) 1 (Ici t) t := ((hasDerivAt_id t).const_add a).hasDerivWithinAt
  have h3 := h2 (a + t) ⟨by linarith [ht.1], by linarith [ht.2]⟩ htS
  have h4 := h3.scomp t e fun s (hs : t ≤ s) => (by linarith : a + t ≤ a + s)
  rw [one_smul, hF] at h4
  exact h4

/-- If the system repeats with every batch, exact solvers report the uninterrupted solution. -/
theorem Tame.rows_running (hT : Tame F) (hB : BoxPieces F) {solve : (ι → ℝ) → ℚ → ι → ℝ} {sim batch : ℚ} (hs : 0 < sim)
    (hb : 0 < batch) (hrep : ∀ t, F (t + batch) = F t) {zero y0 : ι → ℝ} (hy0 : ∀ i, 0 ≤ y0 i) {times : List ℚ}
    {rows : List (ι → ℝ)} (hrun : runSimulation id solve zero y0 sim batch = .ok (times, rows))
    (hex : ExactBatches F solve batch y0 rows.length) {W : ℝ → ι → ℝ} (hW : SolvesOn F W 0 sim) (h0 : W 0 = y0) :
    rows = times.map fun t : ℚ => W t := by
  obtain ⟨k, rfl, rfl, rfl⟩ := C32_output_times hs hb hrun
  rw [List.length_map, List.length_range] at hex
  have hb' : (0 : ℝ) < batch := by exact_mod_cast hb
  have hlip : ∀ R, 0 ≤ R → ∃ K, ∀ t ∈ Icc (0 : ℝ) batch, LipschitzOnWith K (F t) (box R) := by
    intro R hR
    obtain ⟨K, M, hKM⟩ := SetLip.components (A := Icc (0 : ℝ) batch) (B := box R) (hB.lip batch R hR)
    exact ⟨K, fun t ht => (hKM t ht).1⟩
  have hj : ∀ (j : ℕ) t, F (j * batch + t) = F t := by
    intro j
    induction j with
    | zero => intro t; simp
    | succ j ih =>
      intro t
      rw [show ((j + 1 : ℕ) : ℝ) * batch + t = (j * batch + t) + batch by push_cast; ring, hrep, ih]
  have hW0 := hT.nonneg hW (by rw [h0]; exact hy0)
  have key : ∀ j ≤ k, afterBatches solve batch y0 j = W (j * batch) := by
    intro j
    induction j with
    | zero => intro _; rw [Nat.cast_zero, zero_mul, h0]; rfl
    | succ j ih =>
      intro hjk
      obtain ⟨u, u0, hu, u1⟩ := hex j hjk
      have hle : (j : ℝ) * batch + batch ≤ ((k : ℚ) * batch : ℚ) := by
        have : ((j + 1 : ℕ) : ℝ) ≤ k := by exact_mod_cast hjk
        push_cast at this ⊢
        nlinarith
      have hjb : 0 ≤ (j : ℝ) * batch := by positivity
      have hv := SolvesOn.later hW hjb hle (hj j)
      have huv : u 0 = (fun t => W (j * batch + t)) 0 := by
        dsimp only
        rw [u0, ih (by omega), add_zero]
      have hpos : ∀ i, 0 ≤ u 0 i := by
        rw [huv]
        exact hW0 _ ⟨by linarith, by linarith⟩
      have hend := PyBox.SolvesOn.unique_nonneg hu hv (hT.nonneg hu hpos) (hT.nonneg hv (by rw [huv] at hpos; exact hpos))
        hlip huv ⟨hb'.le, le_rfl⟩
      rw [← u1, hend]
      dsimp only
      congr 1
      push_cast
      ring
  rw [List.map_map]
  refine List.map_congr_left fun j hj => ?_
  rw [key (j + 1) (List.mem_range.1 hj)]
  simp only [Function.comp]
  push_cast
  rfl

/-- If nothing moves during a batch, nothing is reported to move. -/
theorem Tame.rows_still (hT : Tame F) (hB : BoxPieces F) {solve : (ι → ℝ) → ℚ → ι → ℝ} {sim batch : ℚ} (hs : 0 < sim)
    (hb : 0 < batch) {zero y0 : ι → ℝ} (hy0 : ∀ i, 0 ≤ y0 i) (hz : ∀ t ∈ Ico (0 : ℝ) batch, F t y0 = 0)
    {times : List ℚ} {rows : List (ι → ℝ)} (hrun : runSimulation id solve zero y0 sim batch = .ok (times, rows))
    (hex : ExactBatches F solve batch y0 rows.length) : ∀ row ∈ rows, row = y0 := by
  obtain ⟨k, rfl, rfl, rfl⟩ := C32_output_times hs hb hrun
  rw [List.length_map, List.length_range] at hex
  have hb' : (0 : ℝ) ≤ batch := by exact_mod_cast hb.le
  have hlip : ∀ R, 0 ≤ R → ∃ K, ∀ t ∈ Icc (0 : ℝ) batch, LipschitzOnWith K (F t) (box R) := by
    intro R hR
    obtain ⟨K, M, hKM⟩ := SetLip.components (A := Icc (0 : ℝ) batch) (B := box R) (hB.lip batch R hR)
    exact ⟨K, fun t ht => (hKM t ht).1⟩
  have hc : SolvesOn F (fun _ => y0) 0 batch :=
    ⟨continuousOn_const, ∅, finite_empty, fun t ht _ => by rw [hz t ht]; exact hasDerivWithinAt_const _ _ _⟩
  have key : ∀ j ≤ k, afterBatches solve batch y0 j = y0 := by
    intro j
    induction j with
    | zero => exact fun _ => rfl
    | succ j ih =>
      intro hjk
      obtain ⟨u, u0, hu, u1⟩ := hex j hjk
      rw [ih (by omega)] at u0
      rw [← u1]
      exact PyBox.SolvesOn.unique_nonneg hu hc (hT.nonneg hu (by rw [u0]; exact hy0)) (fun _ _ => hy0) hlip u0
        ⟨hb', le_rfl⟩
  intro row hrow
  obtain ⟨j, hj, rfl⟩ := List.mem_map.1 hrow
  exact key (j + 1) (List.mem_range.1 hj)

end

/-! ## From the texts of the generated files -/

/-- Values in memory do not matter. -/
theorem Spec.GasSystemF.congr {text : Str} {m : Mechanism} {qs : List RawEqn} {cores : Option ℕ}
    (h : extractMechanism text = .ok m) (hq : Reads text m.equations.toNat qs)
    {rates rates' : Rates} {start h2o temp : ℝ} {n : ℕ} {F : ℝ → (Fin n → ℝ) → Fin n → ℝ}
    (hF : GasSystemF m cores rates start h2o temp F)
    (hr : ∀ t r e, e < qs.length → rates t r h2o temp e = rates' t r h2o temp e) :
    GasSystemF m cores rates' start h2o temp F := by
  have hsome : ∀ t (y : Fin n → ℝ), (dydtFuncF m.tables m.equations.toNat n cores (ro2Indices m.tables.index) rates'
      start h2o temp t (stateOf y)).isSome := by
    intro t y
    obtain ⟨out, ho, -⟩ := hF.2 t y
    unfold dydtFuncF at ho ⊢
    cases hr : ro2Total (ro2Indices m.tables.index) (stateOf y) with
    | none => rw [hr] at ho; cases ho
    | some r =>
      rw [hr, Option.bind_some] at ho
      rw [Option.bind_some]
      exact (gasRhsF_isSome h _ _ _ _ _ _).2 ((gasRhsF_isSome h _ _ _ _ _ _).1 (Option.isSome_iff_exists.2 ⟨out, ho⟩))
  have hF' : GasSystemF m cores rates' start h2o temp (fun t y (i : Fin n) => (Option.get _ (hsome t y)) i) :=
    ⟨hF.1, fun t y => ⟨_, (Option.some_get (hsome t y)).symm, fun _ => rfl⟩⟩
  rwa [(hF.kinetic h hq).eq h (hF'.kinetic h hq) (fun _ _ _ _ _ => rfl) hr]

section

variable {text : Str} {m : Mechanism} {qs : List RawEqn} {num : ℚ → Str} {conv : ℕ} {junk junk' : Vals}
  {start h2o temp : ℝ} {n : ℕ} {F F' : ℝ → (Fin n → ℝ) → Fin n → ℝ} {cores : Option ℕ}
  {solve : (Fin n → ℝ) → ℚ → Fin n → ℝ} {sim batch : ℚ} {zero y0 : Fin n → ℝ} {times : List ℚ} {rows : List (Fin n → ℝ)}
  {W : ℝ → Fin n → ℝ}

/-- **C107**: a gas simulation of the Python version does not depend on the day it starts on. -/
theorem C107_day_python {f : GasFiles} (h : extractMechanism text = .ok m) (hq : Reads text m.equations.toNat qs)
    (hw : Prints num id m.tables) (hf : f.WrittenPython m conv num)
    (hread : ReadableRates .numba ((convertOf .numba)^[conv]) qs) (days : ℤ)
    (hF : PythonSystem f m junk start h2o temp F)
    (hF' : PythonSystem f m junk' (start + 86400 * days) h2o temp F') : F = F' := by
  obtain ⟨p, hp, -⟩ := C66_value h hq (b := .numba) (by decide) none hread
  have hA := ((C73_system_python h hw hf (hf.rates ▸ hp)).1 hF).congr h hq
    (rates' := generatedRates .numba p fun _ => 0) fun t r e he => by
      rw [generated_textRate h hq (by decide) hread hp junk temp _ _ h2o he,
        generated_textRate h hq (by decide) hread hp (fun _ => 0) temp _ _ h2o he]
  have hA' := ((C73_system_python h hw hf (hf.rates ▸ hp)).1 hF').congr h hq
    (rates' := generatedRates .numba p fun _ => 0) fun t r e he => by
      rw [generated_textRate h hq (by decide) hread hp junk' temp _ _ h2o he,
        generated_textRate h hq (by decide) hread hp (fun _ => 0) temp _ _ h2o he]
  funext t
  refine hA.same hA' ?_
  rw [← C107_rates_day h hq (by decide) hread hp _ (start + t) days]
  exact congrArg (generatedRates _ p fun _ => 0) (by ring)

/-- **C107**: the same for the Fortran version. -/
theorem C107_day_fortran {f : GasFiles} (h : extractMechanism text = .ok m) (hq : Reads text m.equations.toNat qs)
    (hw : Prints num id m.tables) (hf : f.WrittenFortran m cores conv num)
    (hread : ReadableRates .fortran ((convertOf .fortran)^[conv]) qs) (days : ℤ)
    (hF : FortranSystem f m junk start h2o temp F)
    (hF' : FortranSystem f m junk' (start + 86400 * days) h2o temp F') : F = F' := by
  obtain ⟨p, hp, -⟩ := C66_value h hq (b := .fortran) (by decide) cores hread
  have hA := GasSystemF.congr (hF := (C73_system_fortran h hw hf (hf.rates ▸ hp)).1 hF) h hq
    (rates' := generatedRates .fortran p fun _ => 0) fun t r e he =>
      fortran_rates_eq h hq hread hp hp junk (fun _ => 0) t r h2o temp he
  have hA' := GasSystemF.congr (hF := (C73_system_fortran h hw hf (hf.rates ▸ hp)).1 hF') h hq
    (rates' := generatedRates .fortran p fun _ => 0) fun t r e he =>
      fortran_rates_eq h hq hread hp hp junk' (fun _ => 0) t r h2o temp he
  funext t
  refine hA.same hA' ?_
  rw [← C107_rates_day h hq (by decide) hread hp _ (start + t) days]
  exact congrArg (generatedRates _ p fun _ => 0) (by ring)

/-- **C107**: if the batches last whole days or there is no photolysis, the Python version reports the uninterrupted
solution at the times it reports. -/
theorem C107_running_python {f : GasFiles} (h : extractMechanism text = .ok m) (hq : Reads text m.equations.toNat qs)
    (hpos : ∀ q ∈ qs, ∀ p ∈ chemReactants q ++ chemProducts q, 0 < p.1) (hone : WholeReactants qs)
    (hw : Prints num id m.tables) (hf : f.WrittenPython m conv num)
    (hread : ReadableRates .numba ((convertOf .numba)^[conv]) qs)
    (hnn : NonnegRates .numba ((convertOf .numba)^[conv]) qs h2o temp)
    (hc : ClockHarmless .numba ((convertOf .numba)^[conv]) qs batch) (hF : PythonSystem f m junk start h2o temp F)
    (hs : 0 < sim) (hb : 0 < batch) (hy0 : ∀ i, 0 ≤ y0 i)
    (hrun : runSimulation id solve zero y0 sim batch = .ok (times, rows))
    (hex : ExactBatches F solve batch y0 rows.length) (hW : SolvesOn F W 0 sim) (h0 : W 0 = y0) :
    rows = times.map fun t : ℚ => W t := by
  obtain ⟨p, hp, -⟩ := C66_value h hq (b := .numba) (by decide) none hread
  have hA := ((C73_system_python h hw hf (hf.rates ▸ hp)).1 hF).congr h hq
    (rates' := generatedRates .numba p fun _ => 0) fun t r e he => by
      rw [generated_textRate h hq (by decide) hread hp junk temp _ _ h2o he,
        generated_textRate h hq (by decide) hread hp (fun _ => 0) temp _ _ h2o he]
  have hr := C66_piecewise h hq (by decide) hread hp (junk := fun _ => 0) (fun _ => le_refl _) start hnn
  refine ((hA.kinetic h hq).tame h (recorded_loss_only h hq hpos).1 (left_pos hpos) hone hr.regular).rows_running
    ((hA.kinetic h hq).boxPieces h hone hr) hs hb (fun t => hA.same hA ?_) hy0 hrun hex hW h0
  rw [← add_assoc]
  exact rates_repeat h hq (by decide) hread hp _ hc _

/-- **C107**: the same for the Fortran version. -/
theorem C107_running_fortran {f : GasFiles} (h : extractMechanism text = .ok m) (hq : Reads text m.equations.toNat qs)
    (hpos : ∀ q ∈ qs, ∀ p ∈ chemReactants q ++ chemProducts q, 0 < p.1) (hone : WholeReactants qs)
    (hw : Prints num id m.tables) (hf : f.WrittenFortran m cores conv num)
    (hread : ReadableRates .fortran ((convertOf .fortran)^[conv]) qs)
    (hnn : NonnegRates .fortran ((convertOf .fortran)^[conv]) qs h2o temp)
    (hc : ClockHarmless .fortran ((convertOf .fortran)^[conv]) qs batch) (hF : FortranSystem f m junk start h2o temp F)
    (hs : 0 < sim) (hb : 0 < batch) (hy0 : ∀ i, 0 ≤ y0 i)
    (hrun : runSimulation id solve zero y0 sim batch = .ok (times, rows))
    (hex : ExactBatches F solve batch y0 rows.length) (hW : SolvesOn F W 0 sim) (h0 : W 0 = y0) :
    rows = times.map fun t : ℚ => W t := by
  obtain ⟨p, hp, -⟩ := C66_value h hq (b := .fortran) (by decide) cores hread
  have hA := GasSystemF.congr (hF := (C73_system_fortran h hw hf (hf.rates ▸ hp)).1 hF) h hq
    (rates' := generatedRates .fortran p fun _ => 0) fun t r e he =>
      fortran_rates_eq h hq hread hp hp junk (fun _ => 0) t r h2o temp he
  have hr := C66_piecewise h hq (by decide) hread hp (junk := fun _ => 0) (fun _ => le_refl _) start hnn
  refine ((hA.kinetic h hq).tame h (recorded_loss_only h hq hpos).2 (left_pos hpos) hone hr.regular).rows_running
    ((hA.kinetic h hq).boxPieces h hone hr) hs hb (fun t => hA.same hA ?_) hy0 hrun hex hW h0
  rw [← add_assoc]
  exact rates_repeat h hq (by decide) hread hp _ hc _

variable {L : Aerosol.Layout} {C : AeroConst} {f : AeroFiles} {M M' : ℝ → (ℕ → ℝ) → Machine L}

/-- **C107**: a simulation with particles does not depend on the day it starts on. -/
theorem C107_day_aerosol (h : extractMechanism text = .ok m) (hq : Reads text m.equations.toNat qs)
    (hns : L.numSpecies = m.tables.species.length + 1) (hL : GoodLayout L) (hc : 1 ≤ L.numCond)
    (hw : Prints num id m.tables) (hf : f.WrittenFor m cores conv num L)
    (hread : ReadableRates .fortran ((convertOf .fortran)^[conv]) qs) (hM : ∀ t y, (M t y).Orderly)
    (hM' : ∀ t y, (M' t y).Orderly) (days : ℤ) (hF : FileSystem f m L C junk M start h2o F)
    (hF' : FileSystem f m L C junk' M' (start + 86400 * days) h2o F') : F = F' := by
  obtain ⟨p, hp, -⟩ := C66_value h hq (b := .fortran) (by decide) cores hread
  have hA := ((C72_system h hw hL hc hf (hf.rates ▸ hp) hM).1 hF).congr h hq hns
    (rates' := generatedRates .fortran p fun _ => 0) fun t r e he =>
      fortran_rates_eq h hq hread hp hp junk (fun _ => 0) t r h2o C.temp he
  have hA' := ((C72_system h hw hL hc hf (hf.rates ▸ hp) hM').1 hF').congr h hq hns
    (rates' := generatedRates .fortran p fun _ => 0) fun t r e he =>
      fortran_rates_eq h hq hread hp hp junk' (fun _ => 0) t r h2o C.temp he
  funext t
  refine hA.same hA' ?_
  rw [← C107_rates_day h hq (by decide) hread hp _ (start + t) days]
  exact congrArg (generatedRates _ p fun _ => 0) (by ring)

/-- **C107**: if the batches last whole days or there is no photolysis, a simulation with particles reports the
uninterrupted solution. -/
theorem C107_running_aerosol (h : extractMechanism text = .ok m) (hq : Reads text m.equations.toNat qs)
    (hns : L.numSpecies = m.tables.species.length + 1) (hL : GoodLayout L) (hcond : 1 ≤ L.numCond) (hC : PhysConst L C)
    (hpos : ∀ q ∈ qs, ∀ p ∈ chemReactants q ++ chemProducts q, 0 < p.1) (hone : WholeReactants qs)
    (hw : Prints num id m.tables) (hf : f.WrittenFor m cores conv num L)
    (hread : ReadableRates .fortran ((convertOf .fortran)^[conv]) qs)
    (hnn : NonnegRates .fortran ((convertOf .fortran)^[conv]) qs h2o C.temp)
    (hc : ClockHarmless .fortran ((convertOf .fortran)^[conv]) qs batch) (hM : ∀ t y, (M t y).Orderly)
    (hF : FileSystem f m L C junk M start h2o F) (hs : 0 < sim) (hb : 0 < batch) (hy0 : ∀ i, 0 ≤ y0 i)
    (hrun : runSimulation id solve zero y0 sim batch = .ok (times, rows))
    (hex : ExactBatches F solve batch y0 rows.length) (hW : SolvesOn F W 0 sim) (h0 : W 0 = y0) :
    rows = times.map fun t : ℚ => W t := by
  obtain ⟨p, hp, -⟩ := C66_value h hq (b := .fortran) (by decide) cores hread
  have hA := ((C72_system h hw hL hcond hf (hf.rates ▸ hp) hM).1 hF).congr h hq hns
    (rates' := generatedRates .fortran p fun _ => 0) fun t r e he =>
      fortran_rates_eq h hq hread hp hp junk (fun _ => 0) t r h2o C.temp he
  have hr := C66_piecewise h hq (by decide) hread hp (junk := fun _ => 0) (fun _ => le_refl _) start hnn
  refine (hA.tame h hq hns hL hC hpos hone hr.regular).rows_running (hA.boxPieces h hq hns hL hC hone hr) hs hb
    (fun t => hA.same hA ?_) hy0 hrun hex hW h0
  rw [← add_assoc]
  exact rates_repeat h hq (by decide) hread hp _ hc _

end

end PyBox
