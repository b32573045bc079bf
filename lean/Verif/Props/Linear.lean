import Verif.Props.Clock

/-!
# C108: mechanisms of first order

If every reaction has one reactant and no rate depends on the peroxy radicals, concentrations add up: what two simulations
report together is what one simulation reports that starts with both.
-/

namespace PyBox

open Set Spec Rl

namespace Spec

/-- Every reaction consumes one species, with coefficient 1. -/
def FirstOrder (qs : List RawEqn) : Prop := ∀ q ∈ qs, ∃ s, chemReactants q = [(1, s)]

/-- No rate text mentions the sum of the peroxy radicals. -/
def RadicalFree (b : Backend) (convert : Str → Str) (qs : List RawEqn) : Prop :=
  ∀ q ∈ qs, ∀ e, readExpr b (convert q.rate) = some e → b.var "RO2" ∉ e.vars

/-- The first amounts and `a` times the second. -/
def combine {ι : Type} (a : ℝ) (y z : ι → ℝ) : ι → ℝ := fun i => y i + a * z i

end Spec

attribute [local irreducible] rateProgram

/-! ## Runs -/

section

variable {ι : Type} [Fintype ι] {F : ℝ → (ι → ℝ) → ι → ℝ}

theorem SolvesOn.combine {a : ℝ} (hF : ∀ t y z, F t (combine a y z) = combine a (F t y) (F t z)) {u v : ℝ → ι → ℝ} {T : ℝ}
    (hu : SolvesOn F u 0 T) (hv : SolvesOn F v 0 T) : SolvesOn F (fun t => Spec.combine a (u t) (v t)) 0 T := by
  obtain ⟨h1, S, hS, h2⟩ := hu
  obtain ⟨h1', S', hS', h2'⟩ := hv
  refine ⟨continuousOn_pi.2 fun i => ((continuousOn_pi.1 h1) i).add (continuousOn_const.mul ((continuousOn_pi.1 h1') i)),
    S ∪ S', hS.union hS', fun t ht htS => ?_⟩
  rw [mem_union, not_or] at htS
  rw [hF]
  exact hasDerivWithinAt_pi.2 fun i => (hasDerivWithinAt_pi.1 (h2 t ht htS.1) i).add
    ((hasDerivWithinAt_pi.1 (h2' t ht htS.2) i).const_mul a)

/-- Exact solvers of a linear system report results that add up. -/
theorem Tame.rows_combine (hT : Tame F) (hB : BoxPieces F) {a : ℝ}
    (hF : ∀ t y z, F t (combine a y z) = combine a (F t y) (F t z)) {solve solve' solve'' : (ι → ℝ) → ℚ → ι → ℝ}
    {sim batch : ℚ} (hs : 0 < sim) (hb : 0 < batch) {zero zero' zero'' y0 z0 : ι → ℝ} (hy0 : ∀ i, 0 ≤ y0 i)
    (hz0 : ∀ i, 0 ≤ z0 i) (hyz : ∀ i, 0 ≤ combine a y0 z0 i) {times times' times'' : List ℚ} {rows rows' rows'' : List (ι → ℝ)}
    (hrun : runSimulation id solve zero y0 sim batch = .ok (times, rows))
    (hrun' : runSimulation id solve' zero' z0 sim batch = .ok (times', rows'))
    (hrun'' : runSimulation id solve'' zero'' (combine a y0 z0) sim batch = .ok (times'', rows''))
    (hex : ExactBatches F solve batch y0 rows.length) (hex' : ExactBatches F solve' batch z0 rows'.length)
    (hex'' : ExactBatches F solve'' batch (combine a y0 z0) rows''.length) :
    times'' = times ∧ times'' = times' ∧ rows'' = List.zipWith (combine a) rows rows' := by
  obtain ⟨k, rfl, rfl, hk⟩ := C32_output_times hs hb hrun
  obtain ⟨k', rfl, rfl, hk'⟩ := C32_output_times hs hb hrun'
  obtain ⟨k'', rfl, rfl, hk''⟩ := C32_output_times hs hb hrun''
  have e' : k = k' := by
    have := hk.symm.trans hk'
    exact_mod_cast mul_right_cancel₀ hb.ne' this
  have e'' : k = k'' := by
    have := hk.symm.trans hk''
    exact_mod_cast mul_right_cancel₀ hb.ne' this
  subst e' e''
  rw [List.length_map, List.length_range] at hex hex' hex''
  have hb' : (0 : ℝ) ≤ batch := by exact_mod_cast hb.le
  have hlip : ∀ R, 0 ≤ R → ∃ K, ∀ t ∈ Icc (0 : ℝ) batch, LipschitzOnWith K (F t) (box R) := by
    intro R hR
    obtain ⟨K, M, hKM⟩ := SetLip.components (A := Icc (0 : ℝ) batch) (B := box R) (hB.lip batch R hR)
    exact ⟨K, fun t ht => (hKM t ht).1⟩
  have key : ∀ j ≤ k, (∀ i, 0 ≤ afterBatches solve batch y0 j i) ∧ (∀ i, 0 ≤ afterBatches solve' batch z0 j i) ∧
      (∀ i, 0 ≤ combine a (afterBatches solve batch y0 j) (afterBatches solve' batch z0 j) i) ∧
      afterBatches solve'' batch (combine a y0 z0) j =
        combine a (afterBatches solve batch y0 j) (afterBatches solve' batch z0 j) := by
    intro j
    induction j with
    | zero => exact fun _ => ⟨hy0, hz0, hyz, rfl⟩
    | succ j ih =>
      intro hj
      obtain ⟨i1, i2, i4, i3⟩ := ih (by omega)
      obtain ⟨u, u0, hu, u1⟩ := hex j hj
      obtain ⟨v, v0, hv, v1⟩ := hex' j hj
      obtain ⟨w, w0, hw, w1⟩ := hex'' j hj
      have hun := hT.nonneg hu (by rw [u0]; exact i1)
      have hvn := hT.nonneg hv (by rw [v0]; exact i2)
      have hcn := hT.nonneg (SolvesOn.combine hF hu hv) (by rw [u0, v0]; exact i4)
      have hend := PyBox.SolvesOn.unique_nonneg hw (SolvesOn.combine hF hu hv)
        (hT.nonneg hw (by rw [w0, i3]; exact i4)) hcn hlip
        (by rw [w0, i3, u0, v0]) ⟨hb', le_rfl⟩
      rw [← u1, ← v1, ← w1]
      exact ⟨hun _ ⟨hb', le_rfl⟩, hvn _ ⟨hb', le_rfl⟩, hcn _ ⟨hb', le_rfl⟩, hend⟩
  refine ⟨rfl, rfl, ?_⟩
  rw [List.zipWith_map, List.zipWith_self]
  exact List.map_congr_left fun j hj => (key (j + 1) (List.mem_range.1 hj)).2.2.2

/-- Exact solvers of a linear system: a run that starts with more of everything reports more of everything. -/
theorem Tame.rows_monotone (hT : Tame F) (hF : ∀ t y z, F t (combine (-1) y z) = combine (-1) (F t y) (F t z))
    {solve solve' : (ι → ℝ) → ℚ → ι → ℝ} {sim batch : ℚ} (hs : 0 < sim) (hb : 0 < batch) {zero zero' y0 z0 : ι → ℝ}
    (hyz : ∀ i, y0 i ≤ z0 i) {times times' : List ℚ} {rows rows' : List (ι → ℝ)}
    (hrun : runSimulation id solve zero y0 sim batch = .ok (times, rows))
    (hrun' : runSimulation id solve' zero' z0 sim batch = .ok (times', rows'))
    (hex : ExactBatches F solve batch y0 rows.length) (hex' : ExactBatches F solve' batch z0 rows'.length) :
    times = times' ∧ List.Forall₂ (fun row row' => ∀ i, row i ≤ row' i) rows rows' := by
  obtain ⟨k, rfl, rfl, hk⟩ := C32_output_times hs hb hrun
  obtain ⟨k', rfl, rfl, hk'⟩ := C32_output_times hs hb hrun'
  have e' : k = k' := by
    have := hk.symm.trans hk'
    exact_mod_cast mul_right_cancel₀ hb.ne' this
  subst e'
  rw [List.length_map, List.length_range] at hex hex'
  have hb' : (0 : ℝ) ≤ batch := by exact_mod_cast hb.le
  have hle : ∀ {y z : ι → ℝ}, (∀ i, y i ≤ z i) ↔ ∀ i, 0 ≤ combine (-1) z y i := fun {y z} => forall_congr' fun i => by
    unfold Spec.combine
    constructor <;> intro h <;> linarith
  have key : ∀ j ≤ k, ∀ i, afterBatches solve batch y0 j i ≤ afterBatches solve' batch z0 j i := by
    intro j
    induction j with
    | zero => exact fun _ => hyz
    | succ j ih =>
      intro hj
      obtain ⟨u, u0, hu, u1⟩ := hex j hj
      obtain ⟨v, v0, hv, v1⟩ := hex' j hj
      rw [hle, ← u1, ← v1]
      exact hT.nonneg (SolvesOn.combine hF hv hu) (by rw [u0, v0, ← hle]; exact ih (by omega)) _ ⟨hb', le_rfl⟩
  refine ⟨rfl, ?_⟩
  rw [List.forall₂_map_left_iff, List.forall₂_map_right_iff]
  exact List.forall₂_same.2 fun j hj => key (j + 1) (List.mem_range.1 hj)

end

/-! ## Chemistry -/

section

variable {text : Str} {m : Mechanism} {qs : List RawEqn} {A : Str → ℕ → ℝ} {rates : Rates} {start h2o temp : ℝ} {n : ℕ}
  {F : ℝ → (Fin n → ℝ) → Fin n → ℝ}

theorem stateOf_combine (a : ℝ) (y z : Fin n → ℝ) (k : ℕ) :
    stateOf (combine a y z) k = stateOf y k + a * stateOf z k := by
  unfold stateOf combine
  split
  · rfl
  · ring

/-- **C108**: the tendencies of the third state are the same combination of the tendencies of the other two. -/
theorem C108_tendencies (hF : KineticSystem m qs A rates start h2o temp F) (h : extractMechanism text = .ok m)
    (hfirst : FirstOrder qs)
    (hr : ∀ e < qs.length, ∀ t r r', rates t r h2o temp e = rates t r' h2o temp e) (a t : ℝ) (y z : Fin n → ℝ) :
    F t (combine a y z) = combine a (F t y) (F t z) := by
  funext i
  obtain ⟨s, hs⟩ := (C01_indices h (i : ℕ)).2 (i.2.trans_eq hF.size)
  show F t (combine a y z) i = F t y i + a * F t z i
  rw [hF.value s i hs, hF.value s i hs, hF.value s i hs]
  unfold kineticValue
  by_cases hx : s ∈ heldConstant
  · rw [if_pos hx, if_pos hx, if_pos hx]
    ring
  rw [if_neg hx, if_neg hx, if_neg hx, Finset.mul_sum, ← Finset.sum_add_distrib]
  refine Finset.sum_congr rfl fun e he => ?_
  have he := Finset.mem_range.1 he
  have hp : ∃ k, ∀ w : ℕ → ℝ, reactionProduct qs m.tables w e = w k := by
    obtain ⟨s', hs'⟩ := hfirst _ (List.getElem_mem he)
    refine ⟨m.tables.index.getD s' 0, fun w => ?_⟩
    unfold reactionProduct
    rw [List.getElem?_eq_getElem he]
    dsimp only
    unfold codeProduct
    have hc : coef [((1 : ℚ), s')] s' = 1 := by simp [coef]
    rw [hs', if_neg (by simp), show names [((1 : ℚ), s')] = [s'] from rfl, List.map_singleton, List.prod_singleton, hc,
      Rat.cast_one, Real.rpow_one]
    rfl
  obtain ⟨k, hk⟩ := hp
  rw [hk, hk, hk, stateOf_combine, hr e he (start + t) ((ro2Indices m.tables.index).map (stateOf y)).sum
    ((ro2Indices m.tables.index).map (stateOf (combine a y z))).sum, hr e he (start + t)
    ((ro2Indices m.tables.index).map (stateOf z)).sum ((ro2Indices m.tables.index).map (stateOf (combine a y z))).sum]
  ring

theorem Spec.FirstOrder.whole (hfirst : FirstOrder qs) : WholeReactants qs := by
  intro q hq' s hs
  obtain ⟨s', hs'⟩ := hfirst q hq'
  rw [hs'] at hs ⊢
  obtain rfl : s = s' := by simpa [names] using hs
  simp [coef]

variable {solve solve' solve'' : (Fin n → ℝ) → ℚ → Fin n → ℝ} {sim batch : ℚ} {zero zero' zero'' y0 z0 : Fin n → ℝ}
  {times times' times'' : List ℚ} {rows rows' rows'' : List (Fin n → ℝ)} {a : ℝ} {cores : Option ℕ}

/-- **C108**: three gas simulations of the Python version with a mechanism of first order, with exact solvers, the third
started with the amounts of the first and `a` times those of the second: it reports the same combination at every time. -/
theorem C108_rows (h : extractMechanism text = .ok m) (hq : Reads text m.equations.toNat qs)
    (hpos : ∀ q ∈ qs, ∀ p ∈ chemReactants q ++ chemProducts q, 0 < p.1) (hfirst : FirstOrder qs)
    (hr : PiecewiseRates rates start h2o temp)
    (hfree : ∀ e < qs.length, ∀ t r r', rates t r h2o temp e = rates t r' h2o temp e)
    (hF : GasSystem m rates start h2o temp F) (hs : 0 < sim) (hb : 0 < batch) (hy0 : ∀ i, 0 ≤ y0 i)
    (hz0 : ∀ i, 0 ≤ z0 i) (hyz : ∀ i, 0 ≤ combine a y0 z0 i)
    (hrun : runSimulation id solve zero y0 sim batch = .ok (times, rows))
    (hrun' : runSimulation id solve' zero' z0 sim batch = .ok (times', rows'))
    (hrun'' : runSimulation id solve'' zero'' (combine a y0 z0) sim batch = .ok (times'', rows''))
    (hex : ExactBatches F solve batch y0 rows.length) (hex' : ExactBatches F solve' batch z0 rows'.length)
    (hex'' : ExactBatches F solve'' batch (combine a y0 z0) rows''.length) :
    times'' = times ∧ times'' = times' ∧ rows'' = List.zipWith (combine a) rows rows' := by
  have hone := hfirst.whole
  have hk := hF.kinetic h hq
  exact (hk.tame h (recorded_loss_only h hq hpos).1 (left_pos hpos) hone hr.regular).rows_combine
    (hk.boxPieces h hone hr) (C108_tendencies hk h hfirst hfree a) hs hb hy0 hz0 hyz hrun hrun' hrun'' hex hex' hex''

/-- **C108**: the same for the Fortran version. -/
theorem C108_rows_fortran (h : extractMechanism text = .ok m) (hq : Reads text m.equations.toNat qs)
    (hpos : ∀ q ∈ qs, ∀ p ∈ chemReactants q ++ chemProducts q, 0 < p.1) (hfirst : FirstOrder qs)
    (hr : PiecewiseRates rates start h2o temp)
    (hfree : ∀ e < qs.length, ∀ t r r', rates t r h2o temp e = rates t r' h2o temp e)
    (hF : GasSystemF m cores rates start h2o temp F) (hs : 0 < sim) (hb : 0 < batch) (hy0 : ∀ i, 0 ≤ y0 i)
    (hz0 : ∀ i, 0 ≤ z0 i) (hyz : ∀ i, 0 ≤ combine a y0 z0 i)
    (hrun : runSimulation id solve zero y0 sim batch = .ok (times, rows))
    (hrun' : runSimulation id solve' zero' z0 sim batch = .ok (times', rows'))
    (hrun'' : runSimulation id solve'' zero'' (combine a y0 z0) sim batch = .ok (times'', rows''))
    (hex : ExactBatches F solve batch y0 rows.length) (hex' : ExactBatches F solve' batch z0 rows'.length)
    (hex'' : ExactBatches F solve'' batch (combine a y0 z0) rows''.length) :
    times'' = times ∧ times'' = times' ∧ rows'' = List.zipWith (combine a) rows rows' := by
  have hone := hfirst.whole
  have hk := hF.kinetic h hq
  exact (hk.tame h (recorded_loss_only h hq hpos).2 (left_pos hpos) hone hr.regular).rows_combine
    (hk.boxPieces h hone hr) (C108_tendencies hk h hfirst hfree a) hs hb hy0 hz0 hyz hrun hrun' hrun'' hex hex' hex''

/-- **C108**: with more of every species in the beginning, no less of any species is ever reported. -/
theorem C108_monotone (h : extractMechanism text = .ok m) (hq : Reads text m.equations.toNat qs)
    (hpos : ∀ q ∈ qs, ∀ p ∈ chemReactants q ++ chemProducts q, 0 < p.1) (hfirst : FirstOrder qs)
    (hr : PiecewiseRates rates start h2o temp)
    (hfree : ∀ e < qs.length, ∀ t r r', rates t r h2o temp e = rates t r' h2o temp e)
    (hF : GasSystem m rates start h2o temp F ∨ GasSystemF m cores rates start h2o temp F) (hs : 0 < sim) (hb : 0 < batch)
    (hyz : ∀ i, y0 i ≤ z0 i) (hrun : runSimulation id solve zero y0 sim batch = .ok (times, rows))
    (hrun' : runSimulation id solve' zero' z0 sim batch = .ok (times', rows'))
    (hex : ExactBatches F solve batch y0 rows.length) (hex' : ExactBatches F solve' batch z0 rows'.length) :
    times = times' ∧ List.Forall₂ (fun row row' => ∀ i, row i ≤ row' i) rows rows' := by
  have hone := hfirst.whole
  rcases hF with hF | hF
  · have hk := hF.kinetic h hq
    exact (hk.tame h (recorded_loss_only h hq hpos).1 (left_pos hpos) hone hr.regular).rows_monotone
      (C108_tendencies hk h hfirst hfree (-1)) hs hb hyz hrun hrun' hex hex'
  · have hk := hF.kinetic h hq
    exact (hk.tame h (recorded_loss_only h hq hpos).2 (left_pos hpos) hone hr.regular).rows_monotone
      (C108_tendencies hk h hfirst hfree (-1)) hs hb hyz hrun hrun' hex hex'

theorem conditions_radicalFree {b : Backend} {v : Var} (hv : v ≠ b.var "RO2") (T t r r' h : ℝ) :
    conditions b T t r h v = conditions b T t r' h v := by
  unfold conditions
  cases photolysisTable.find? (fun row => decide (v = b.slot row.1)) with
  | some row => rfl
  | none => dsimp only; rw [if_neg hv, if_neg hv]

theorem generated_radicalFree {b : Backend} {conv : ℕ} {p : List Stmt} (h : extractMechanism text = .ok m)
    (hq : Reads text m.equations.toNat qs) (hb : b ≠ .python) (hread : ReadableRates b ((convertOf b)^[conv]) qs)
    (hp : program b (ratesFile b cores ((convertTable (convertOf b))^[conv] m.tables.rate)) = some p) (junk : Vals)
    (hf : RadicalFree b ((convertOf b)^[conv]) qs) (h2o T : ℝ) :
    ∀ e < qs.length, ∀ t r r', generatedRates b p junk t r h2o T e = generatedRates b p junk t r' h2o T e := by
  obtain ⟨p', hp', hval⟩ := C66_value h hq hb cores hread
  rw [hp] at hp'
  obtain rfl := Option.some.inj hp'
  intro e he t r r'
  have hk : qs[e]? = some qs[e] := List.getElem?_eq_getElem he
  obtain ⟨x, hx, -⟩ := hread _ (List.getElem_mem he)
  rw [(hval junk T t r h2o).1 e _ x hk hx, (hval junk T t r' h2o).1 e _ x hk hx]
  exact Ex.val_congr x fun v hv => conditions_radicalFree
    (fun hc => hf _ (List.getElem_mem he) x hx (hc ▸ hv)) _ _ _ _ _

variable {num : ℚ → Str} {conv : ℕ} {junk : Vals} {f : GasFiles}

/-- **C108**: from the texts of the generated Python files. -/
theorem C108_files_python (h : extractMechanism text = .ok m) (hq : Reads text m.equations.toNat qs)
    (hpos : ∀ q ∈ qs, ∀ p ∈ chemReactants q ++ chemProducts q, 0 < p.1) (hfirst : FirstOrder qs)
    (hw : Prints num id m.tables) (hf : f.WrittenPython m conv num)
    (hread : ReadableRates .numba ((convertOf .numba)^[conv]) qs)
    (hnn : NonnegRates .numba ((convertOf .numba)^[conv]) qs h2o temp)
    (hfree : RadicalFree .numba ((convertOf .numba)^[conv]) qs) (hF : PythonSystem f m junk start h2o temp F)
    (hs : 0 < sim) (hb : 0 < batch) (hy0 : ∀ i, 0 ≤ y0 i)
    (hz0 : ∀ i, 0 ≤ z0 i) (hyz : ∀ i, 0 ≤ combine a y0 z0 i)
    (hrun : runSimulation id solve zero y0 sim batch = .ok (times, rows))
    (hrun' : runSimulation id solve' zero' z0 sim batch = .ok (times', rows'))
    (hrun'' : runSimulation id solve'' zero'' (combine a y0 z0) sim batch = .ok (times'', rows''))
    (hex : ExactBatches F solve batch y0 rows.length) (hex' : ExactBatches F solve' batch z0 rows'.length)
    (hex'' : ExactBatches F solve'' batch (combine a y0 z0) rows''.length) :
    times'' = times ∧ times'' = times' ∧ rows'' = List.zipWith (combine a) rows rows' := by
  obtain ⟨p, hp, -⟩ := C66_value h hq (b := .numba) (by decide) none hread
  have hA := ((C73_system_python h hw hf (hf.rates ▸ hp)).1 hF).congr h hq
    (rates' := generatedRates .numba p fun _ => 0) fun t r e he => by
      rw [generated_textRate h hq (by decide) hread hp junk temp _ _ h2o he,
        generated_textRate h hq (by decide) hread hp (fun _ => 0) temp _ _ h2o he]
  exact C108_rows h hq hpos hfirst (C66_piecewise h hq (by decide) hread hp (fun _ => le_refl _) start hnn)
    (generated_radicalFree h hq (by decide) hread hp _ hfree h2o temp) hA hs hb hy0 hz0 hyz hrun hrun' hrun'' hex hex' hex''

/-- **C108**: from the texts of the generated Fortran files. -/
theorem C108_files_fortran (h : extractMechanism text = .ok m) (hq : Reads text m.equations.toNat qs)
    (hpos : ∀ q ∈ qs, ∀ p ∈ chemReactants q ++ chemProducts q, 0 < p.1) (hfirst : FirstOrder qs)
    (hw : Prints num id m.tables) (hf : f.WrittenFortran m cores conv num)
    (hread : ReadableRates .fortran ((convertOf .fortran)^[conv]) qs)
    (hnn : NonnegRates .fortran ((convertOf .fortran)^[conv]) qs h2o temp)
    (hfree : RadicalFree .fortran ((convertOf .fortran)^[conv]) qs) (hF : FortranSystem f m junk start h2o temp F)
    (hs : 0 < sim) (hb : 0 < batch) (hy0 : ∀ i, 0 ≤ y0 i)
    (hz0 : ∀ i, 0 ≤ z0 i) (hyz : ∀ i, 0 ≤ combine a y0 z0 i)
    (hrun : runSimulation id solve zero y0 sim batch = .ok (times, rows))
    (hrun' : runSimulation id solve' zero' z0 sim batch = .ok (times', rows'))
    (hrun'' : runSimulation id solve'' zero'' (combine a y0 z0) sim batch = .ok (times'', rows''))
    (hex : ExactBatches F solve batch y0 rows.length) (hex' : ExactBatches F solve' batch z0 rows'.length)
    (hex'' : ExactBatches F solve'' batch (combine a y0 z0) rows''.length) :
    times'' = times ∧ times'' = times' ∧ rows'' = List.zipWith (combine a) rows rows' := by
  obtain ⟨p, hp, -⟩ := C66_value h hq (b := .fortran) (by decide) cores hread
  have hA := GasSystemF.congr (hF := (C73_system_fortran h hw hf (hf.rates ▸ hp)).1 hF) h hq
    (rates' := generatedRates .fortran p fun _ => 0) fun t r e he =>
      fortran_rates_eq h hq hread hp hp junk (fun _ => 0) t r h2o temp he
  exact C108_rows_fortran h hq hpos hfirst (C66_piecewise h hq (by decide) hread hp (fun _ => le_refl _) start hnn)
    (generated_radicalFree h hq (by decide) hread hp _ hfree h2o temp) hA hs hb hy0 hz0 hyz hrun hrun' hrun'' hex hex' hex''

end

/-! ## A case the theorems apply to -/

def chainText : Str := "{1.}CH3O2=HCHO:3.00D-4;{2.}HCHO=CO:J(11);".toList

def chainReactions : List RawEqn :=
  [{ reactants := [(1, "CH3O2".toList)], products := [(1, "HCHO".toList)], rate := "3.00D-4".toList },
   { reactants := [(1, "HCHO".toList)], products := [(1, "CO".toList)], rate := "J(11)".toList }]

theorem chain_parses : extractMechanism chainText = .ok { tables := build chainReactions, equations := 2 } := by
  rw [extract_ok_iff]
  refine ⟨"2.".toList, 2, chainReactions, ?_, by decide +kernel, ?_, rfl⟩
  · rw [labels_eq _ (not_mem_removeChar _ _)]; decide +kernel
  · rw [bodies_eq _ (not_mem_removeChar _ _)]; decide +kernel

theorem chain_reads : Reads chainText 2 chainReactions := by
  unfold Reads bodyTexts; decide +kernel

theorem chain_first : FirstOrder chainReactions := by
  have h : ∀ q ∈ chainReactions, chemReactants q = [(1, ((chemReactants q).headD (0, [])).2)] := by decide +kernel
  exact fun q hq => ⟨_, h q hq⟩

theorem chain_rates : ∀ q ∈ chainReactions, rateTextCheck .numba ((convertOf .numba)^[1] q.rate) = true := by
  decide +kernel

theorem chain_free : RadicalFree .numba ((convertOf .numba)^[1]) chainReactions := by
  have h : ∀ q ∈ chainReactions, ∀ e ∈ (readExpr .numba ((convertOf .numba)^[1] q.rate)).toList,
      Backend.numba.var "RO2" ∉ e.vars := by decide +kernel
  exact fun q hq e he => h q hq e (Option.mem_toList.2 he)

/-- All hypotheses are met by `chainText`, with photolysis: twice the peroxy radicals give twice everything. -/
theorem chain_run {start h2o temp : ℝ} (hT : 0 < temp) (hh : 0 ≤ h2o) :
    ∃ (p : List Stmt) (F : ℝ → (Fin 3 → ℝ) → Fin 3 → ℝ) (solve : (Fin 3 → ℝ) → ℚ → Fin 3 → ℝ),
      program .numba (ratesFile .numba none ((convertTable (convertOf .numba))^[1] (build chainReactions).rate)) = some p ∧
      GasSystem ⟨build chainReactions, 2⟩ (generatedRates .numba p fun _ => 0) start h2o temp F ∧
      ∀ y0 : Fin 3 → ℝ, (∀ i, 0 ≤ y0 i) → ∃ rows rows',
        runSimulation id solve (fun _ => 0) y0 (((2 : ℕ) : ℚ) * 60) 60 = .ok ([60, 120], rows) ∧
        runSimulation id solve (fun _ => 0) (fun i => 2 * y0 i) (((2 : ℕ) : ℚ) * 60) 60 = .ok ([60, 120], rows') ∧
        rows' = rows.map fun row i => 2 * row i := by
  obtain ⟨r1, r2⟩ := rateTextCheck_reads chain_rates
  obtain ⟨p, hp, -⟩ := C66_value chain_parses chain_reads (b := .numba) (by decide) none r1
  have hreg : ∀ q ∈ chainReactions, Regular q := by
    have h : ∀ q ∈ chainReactions, chemReactants q ≠ [] ∧ (names (chemReactants q)).Nodup ∧
        GainGood q := by decide +kernel
    exact fun q hq => ⟨(h q hq).1, (h q hq).2.1, (h q hq).2.2⟩
  obtain ⟨F, hF⟩ : ∃ F : ℝ → (Fin 3 → ℝ) → Fin 3 → ℝ,
      GasSystem ⟨build chainReactions, 2⟩ (generatedRates .numba p fun _ => 0) start h2o temp F := by
    have := fun time => C55_kinetics_partial chain_parses chain_reads hreg ⟨"CH3O2".toList, by decide +kernel⟩
      (by decide +kernel) (generatedRates .numba p fun _ => 0) start h2o temp time
    choose f hf using this
    exact ⟨fun t y i => f t (stateOf y) i, by decide +kernel, fun t y => ⟨_, (hf t _).1, fun _ => rfl⟩⟩
  have hpos : ∀ q ∈ chainReactions, ∀ p ∈ chemReactants q ++ chemProducts q, 0 < p.1 := by decide +kernel
  have hone : WholeReactants chainReactions := by unfold WholeReactants; decide +kernel
  have hr := C66_piecewise chain_parses chain_reads (by decide) r1 hp (junk := fun _ => 0) (fun _ => le_refl _) start
    (C66_nonneg (by decide) r1 r2 hT hh)
  have hw : ∀ s i, (build chainReactions).index.get? s = some i → s ∉ heldConstant → ∃ w : Str → ℝ,
      (∀ s, 0 ≤ w s) ∧ 0 < w s ∧ (∀ s ∈ heldConstant, w s = 0) ∧ ∀ q ∈ chainReactions, NotGained w q := by
    intro s i hi hs
    refine ⟨fun s => if s ∈ heldConstant then 0 else 1, fun s => by dsimp only; split <;> norm_num,
      by dsimp only; rw [if_neg hs]; norm_num, fun s hs => if_pos hs, fun q hq => ?_⟩
    have hc : ∀ q ∈ chainReactions, ∃ s ∈ ["CH3O2".toList, "HCHO".toList], ∃ s' ∈ ["HCHO".toList, "CO".toList],
        chemReactants q = [(1, s)] ∧ chemProducts q = [(1, s')] := by decide +kernel
    have hn : ∀ s ∈ ["CH3O2".toList, "HCHO".toList] ++ ["HCHO".toList, "CO".toList], s ∉ heldConstant := by decide +kernel
    obtain ⟨s, h1, s', h2, e1, e2⟩ := hc q hq
    unfold NotGained
    rw [e1, e2]
    simp only [weight, List.map_singleton, List.sum_singleton, if_neg (hn s (List.mem_append_left _ h1)),
      if_neg (hn s' (List.mem_append_right _ h2))]
    exact le_rfl
  obtain ⟨solve, hs⟩ := C61_exists chain_parses chain_reads hpos hone hw hr hF (batch := 60) (by norm_num)
  refine ⟨p, F, solve, hp, hF, fun y0 hy0 => ?_⟩
  have h2 : (fun i => 2 * y0 i) = combine 1 y0 y0 := by
    funext i
    unfold combine
    ring
  have hy2 : ∀ i, 0 ≤ combine 1 y0 y0 i := fun i => by
    have := hy0 i
    unfold combine
    linarith
  obtain ⟨rows, hrun⟩ := two_batches solve y0
  obtain ⟨rows', hrun'⟩ := two_batches solve (combine 1 y0 y0)
  refine ⟨rows, rows', hrun, by rw [h2]; exact hrun', ?_⟩
  obtain ⟨-, -, h3⟩ := C108_rows chain_parses chain_reads hpos chain_first hr
    (generated_radicalFree chain_parses chain_reads (by decide) r1 hp _ chain_free h2o temp) hF (by norm_num)
    (by norm_num) hy0 hy0 hy2 hrun hrun hrun' (hs y0 hy0 _) (hs y0 hy0 _) (hs _ hy2 _)
  rw [h3, List.zipWith_self]
  refine List.map_congr_left fun row _ => ?_
  funext i
  unfold combine
  ring

end PyBox
