import Verif.Props.Linear

/-!
# C109: concentrations and time

If all reactions of a mechanism have the same order and no rate depends on the sun or on the peroxy radicals, a simulation with
other concentrations is the same simulation at another speed.
-/

namespace PyBox

open Set Spec Rl

namespace Spec

/-- The coefficients of the reactants of every reaction add up to `k`, and no reactant is written twice. -/
def OfOrder (k : ℚ) (qs : List RawEqn) : Prop :=
  ∀ q ∈ qs, (names (chemReactants q)).Nodup ∧ ((chemReactants q).map (·.1)).sum = k

/-- All amounts times `c`. -/
def scaled {ι : Type} (c : ℝ) (y : ι → ℝ) : ι → ℝ := fun i => c * y i

end Spec

attribute [local irreducible] rateProgram

/-! ## Runs -/

section

variable {ι : Type} [Fintype ι] {F : ℝ → (ι → ℝ) → ι → ℝ}

theorem SolvesOn.faster {c l T : ℝ} (hl : 0 < l) (hF : ∀ t t' y, (∀ i, 0 ≤ y i) → F t (scaled c y) = scaled (c * l) (F t' y))
    {u : ℝ → ι → ℝ} (hu : SolvesOn F u 0 (l * T)) (h0 : ∀ t ∈ Icc 0 (l * T), ∀ i, 0 ≤ u t i) :
    SolvesOn F (fun t => scaled c (u (l * t))) 0 T := by
  obtain ⟨h1, S, hS, h2⟩ := hu
  have hm : ∀ t ∈ Icc 0 T, l * t ∈ Icc 0 (l * T) :=
    fun t ht => ⟨mul_nonneg hl.le ht.1, mul_le_mul_of_nonneg_left ht.2 hl.le⟩
  refine ⟨continuousOn_pi.2 fun i => continuousOn_const.mul
      (((continuousOn_pi.1 h1) i).comp (by fun_prop) hm), (fun t => l * t) ⁻¹' S,
    hS.preimage (mul_right_injective₀ hl.ne').injOn, fun t ht htS => ?_⟩
  have e : HasDerivWithinAt (fun s => l * s) l (Ici t) t := by
    simpa using ((hasDerivAt_id t).const_mul l).hasDerivWithinAt
  have h3 := h2 (l * t) ⟨mul_nonneg hl.le ht.1, mul_lt_mul_of_pos_left ht.2 hl⟩ htS
  have h4 := h3.scomp t e fun s (hs : t ≤ s) => (mul_le_mul_of_nonneg_left hs hl.le : l * t ≤ l * s)
  rw [hF t (l * t) _ (h0 _ (hm t ⟨ht.1, ht.2.le⟩))]
  refine hasDerivWithinAt_pi.2 fun i => ((hasDerivWithinAt_pi.1 h4 i).const_mul c).congr_deriv ?_
  show c * (l * _) = c * l * _
  ring

/-- Exact solvers of a system whose tendencies grow by the factor `c * l` when the amounts grow by the factor `c`: from `c` times
the amounts a run reports `c` times as much `l` times as early. -/
theorem Tame.rows_faster (hT : Tame F) (hB : BoxPieces F) {c : ℝ} {l : ℚ} (hc : 0 < c) (hl : 0 < l)
    (hF : ∀ t t' y, (∀ i, 0 ≤ y i) → F t (scaled c y) = scaled (c * l) (F t' y)) {solve solve' : (ι → ℝ) → ℚ → ι → ℝ}
    {sim batch : ℚ} (hs : 0 < sim) (hb : 0 < batch) {zero zero' y0 : ι → ℝ} (hy0 : ∀ i, 0 ≤ y0 i)
    {times times' : List ℚ} {rows rows' : List (ι → ℝ)}
    (hrun : runSimulation id solve zero y0 (l * sim) (l * batch) = .ok (times, rows))
    (hrun' : runSimulation id solve' zero' (scaled c y0) sim batch = .ok (times', rows'))
    (hex : ExactBatches F solve (l * batch) y0 rows.length)
    (hex' : ExactBatches F solve' batch (scaled c y0) rows'.length) :
    times = times'.map (l * ·) ∧ rows' = rows.map (scaled c) := by
  obtain ⟨k, rfl, rfl, hk⟩ := C32_output_times (mul_pos hl hs) (mul_pos hl hb) hrun
  obtain ⟨k', rfl, rfl, hk'⟩ := C32_output_times hs hb hrun'
  have e' : k = k' := by
    rw [hk', mul_left_comm] at hk
    exact_mod_cast (mul_right_cancel₀ (mul_pos hl hb).ne' (hk : (k' : ℚ) * (l * batch) = k * (l * batch))).symm
  subst e'
  rw [List.length_map, List.length_range] at hex hex'
  have hb' : (0 : ℝ) ≤ batch := by exact_mod_cast hb.le
  have hl' : (0 : ℝ) < l := by exact_mod_cast hl
  have hlip : ∀ R, 0 ≤ R → ∃ K, ∀ t ∈ Icc (0 : ℝ) batch, LipschitzOnWith K (F t) (box R) := by
    intro R hR
    obtain ⟨K, M, hKM⟩ := SetLip.components (A := Icc (0 : ℝ) batch) (B := box R) (hB.lip batch R hR)
    exact ⟨K, fun t ht => (hKM t ht).1⟩
  have hsc : ∀ {y : ι → ℝ}, (∀ i, 0 ≤ y i) → ∀ i, 0 ≤ scaled c y i := fun hy i => mul_nonneg hc.le (hy i)
  have key : ∀ j ≤ k, (∀ i, 0 ≤ afterBatches solve (l * batch) y0 j i) ∧
      afterBatches solve' batch (scaled c y0) j = scaled c (afterBatches solve (l * batch) y0 j) := by
    intro j
    induction j with
    | zero => exact fun _ => ⟨hy0, rfl⟩
    | succ j ih =>
      intro hj
      obtain ⟨i1, i2⟩ := ih (by omega)
      obtain ⟨u, u0, hu, u1⟩ := hex j hj
      obtain ⟨w, w0, hw, w1⟩ := hex' j hj
      rw [Rat.cast_mul] at hu u1
      have hun := hT.nonneg hu (by rw [u0]; exact i1)
      have hend := PyBox.SolvesOn.unique_nonneg hw (SolvesOn.faster hl' hF hu hun)
        (hT.nonneg hw (by rw [w0, i2]; exact hsc i1))
        (fun t ht => hsc (hun _ ⟨mul_nonneg hl'.le ht.1, mul_le_mul_of_nonneg_left ht.2 hl'.le⟩)) hlip
        (by rw [w0, i2, mul_zero, u0]) ⟨hb', le_rfl⟩
      rw [← u1, ← w1]
      exact ⟨hun _ ⟨mul_nonneg hl'.le hb', le_rfl⟩, hend⟩
  refine ⟨?_, ?_⟩
  · rw [List.map_map]
    refine List.map_congr_left fun j _ => ?_
    show _ = l * (_ * batch)
    ring
  · rw [List.map_map]
    exact List.map_congr_left fun j hj => (key (j + 1) (List.mem_range.1 hj)).2

end

/-! ## Chemistry -/

theorem order_sum : ∀ (l : List (ℚ × Str)), (names l).Nodup → ((names l).map (coef l)).sum = (l.map (·.1)).sum
  | [], _ => rfl
  | p :: l, h => by
    have h' : p.2 ∉ names l ∧ (names l).Nodup := List.nodup_cons.1 h
    have e : (names l).map (coef (p :: l)) = (names l).map (coef l) := List.map_congr_left fun s hs => by
      rw [coef_cons, if_neg (fun hc : p.2 = s => h'.1 (hc ▸ hs)), zero_add]
    rw [show names (p :: l) = p.2 :: names l from rfl, List.map_cons, List.sum_cons, e, order_sum l h'.2, List.map_cons,
      List.sum_cons, coef_cons, if_pos rfl, coef_of_not_mem h'.1, add_zero]

theorem prod_scaled {c : ℝ} (hc : 0 < c) (g : Str → ℚ) {w : Str → ℝ} (hw : ∀ s, 0 ≤ w s) : ∀ l : List Str,
    (l.map fun s => (c * w s) ^ (g s : ℝ)).prod = c ^ (((l.map g).sum : ℚ) : ℝ) * (l.map fun s => w s ^ (g s : ℝ)).prod
  | [] => by simp
  | s :: l => by
    rw [List.map_cons, List.map_cons, List.map_cons, List.prod_cons, List.prod_cons, List.sum_cons, prod_scaled hc g hw l,
      Real.mul_rpow hc.le (hw s), Rat.cast_add, Real.rpow_add hc]
    ring

section

variable {text : Str} {m : Mechanism} {qs : List RawEqn} {A : Str → ℕ → ℝ} {rates : Rates} {start h2o temp : ℝ} {n : ℕ}
  {F : ℝ → (Fin n → ℝ) → Fin n → ℝ} {c : ℝ} {k : ℚ}

theorem stateOf_scaled (c : ℝ) (y : Fin n → ℝ) (j : ℕ) : stateOf (scaled c y) j = c * stateOf y j := by
  unfold stateOf scaled
  split
  · rfl
  · ring

/-- **C109**: with reactions of order `k`, `c` times the concentrations give `c ^ k` times the tendencies. -/
theorem C109_tendencies (hF : KineticSystem m qs A rates start h2o temp F) (h : extractMechanism text = .ok m)
    (hord : OfOrder k qs) (hc : 0 < c)
    (hr : ∀ e < qs.length, ∀ t t' r r', rates t r h2o temp e = rates t' r' h2o temp e) (t t' : ℝ) {y : Fin n → ℝ}
    (hy : ∀ i, 0 ≤ y i) : F t (scaled c y) = scaled (c ^ (k : ℝ)) (F t' y) := by
  funext i
  obtain ⟨s, hs⟩ := (C01_indices h (i : ℕ)).2 (i.2.trans_eq hF.size)
  show F t (scaled c y) i = c ^ (k : ℝ) * F t' y i
  rw [hF.value s i hs, hF.value s i hs]
  unfold kineticValue
  by_cases hx : s ∈ heldConstant
  · rw [if_pos hx, if_pos hx, mul_zero]
  rw [if_neg hx, if_neg hx, Finset.mul_sum]
  refine Finset.sum_congr rfl fun e he => ?_
  have he := Finset.mem_range.1 he
  have hst : ∀ j, 0 ≤ stateOf y j := fun j => by
    unfold stateOf
    split
    · exact hy _
    · exact le_rfl
  have hp : reactionProduct qs m.tables (stateOf (scaled c y)) e =
      c ^ (k : ℝ) * reactionProduct qs m.tables (stateOf y) e := by
    obtain ⟨o1, o2⟩ := hord _ (List.getElem_mem he)
    unfold reactionProduct
    rw [List.getElem?_eq_getElem he]
    dsimp only
    unfold codeProduct
    by_cases hn : chemReactants qs[e] = []
    · rw [if_pos hn, if_pos hn, mul_zero]
    rw [if_neg hn, if_neg hn, ← o2, ← order_sum _ o1, ← prod_scaled hc _ (w := concOf m.tables (stateOf y)) fun s => hst _]
    refine congrArg List.prod (List.map_congr_left fun s _ => ?_)
    unfold concOf
    rw [stateOf_scaled]
  rw [hp, hr e he (start + t) (start + t') ((ro2Indices m.tables.index).map (stateOf (scaled c y))).sum
    ((ro2Indices m.tables.index).map (stateOf y)).sum]
  ring

variable {solve solve' : (Fin n → ℝ) → ℚ → Fin n → ℝ} {sim batch l : ℚ} {zero zero' y0 : Fin n → ℝ}
  {times times' : List ℚ} {rows rows' : List (Fin n → ℝ)} {cores : Option ℕ}

/-- **C109**: two gas simulations of the Python version with reactions of order `k`, with exact solvers, the second started with
`c` times the amounts and `l = c ^ (k - 1)` times shorter: it reports `c` times as much, `l` times as early. -/
theorem C109_rows (h : extractMechanism text = .ok m) (hq : Reads text m.equations.toNat qs)
    (hpos : ∀ q ∈ qs, ∀ p ∈ chemReactants q ++ chemProducts q, 0 < p.1) (hone : WholeReactants qs) (hord : OfOrder k qs)
    (hr : PiecewiseRates rates start h2o temp)
    (hfree : ∀ e < qs.length, ∀ t t' r r', rates t r h2o temp e = rates t' r' h2o temp e)
    (hF : GasSystem m rates start h2o temp F) (hc : 0 < c) (hl : 0 < l) (hcl : c ^ (k : ℝ) = c * l)
    (hs : 0 < sim) (hb : 0 < batch) (hy0 : ∀ i, 0 ≤ y0 i)
    (hrun : runSimulation id solve zero y0 (l * sim) (l * batch) = .ok (times, rows))
    (hrun' : runSimulation id solve' zero' (scaled c y0) sim batch = .ok (times', rows'))
    (hex : ExactBatches F solve (l * batch) y0 rows.length)
    (hex' : ExactBatches F solve' batch (scaled c y0) rows'.length) :
    times = times'.map (l * ·) ∧ rows' = rows.map (scaled c) := by
  have hk := hF.kinetic h hq
  exact (hk.tame h (recorded_loss_only h hq hpos).1 (left_pos hpos) hone hr.regular).rows_faster
    (hk.boxPieces h hone hr) hc hl (fun t t' y hy => hcl ▸ C109_tendencies hk h hord hc hfree t t' hy) hs hb hy0 hrun hrun'
    hex hex'

/-- **C109**: the same for the Fortran version. -/
theorem C109_rows_fortran (h : extractMechanism text = .ok m) (hq : Reads text m.equations.toNat qs)
    (hpos : ∀ q ∈ qs, ∀ p ∈ chemReactants q ++ chemProducts q, 0 < p.1) (hone : WholeReactants qs) (hord : OfOrder k qs)
    (hr : PiecewiseRates rates start h2o temp)
    (hfree : ∀ e < qs.length, ∀ t t' r r', rates t r h2o temp e = rates t' r' h2o temp e)
    (hF : GasSystemF m cores rates start h2o temp F) (hc : 0 < c) (hl : 0 < l) (hcl : c ^ (k : ℝ) = c * l)
    (hs : 0 < sim) (hb : 0 < batch) (hy0 : ∀ i, 0 ≤ y0 i)
    (hrun : runSimulation id solve zero y0 (l * sim) (l * batch) = .ok (times, rows))
    (hrun' : runSimulation id solve' zero' (scaled c y0) sim batch = .ok (times', rows'))
    (hex : ExactBatches F solve (l * batch) y0 rows.length)
    (hex' : ExactBatches F solve' batch (scaled c y0) rows'.length) :
    times = times'.map (l * ·) ∧ rows' = rows.map (scaled c) := by
  have hk := hF.kinetic h hq
  exact (hk.tame h (recorded_loss_only h hq hpos).2 (left_pos hpos) hone hr.regular).rows_faster
    (hk.boxPieces h hone hr) hc hl (fun t t' y hy => hcl ▸ C109_tendencies hk h hord hc hfree t t' hy) hs hb hy0 hrun hrun'
    hex hex'

theorem generated_steady {b : Backend} {conv : ℕ} {p : List Stmt} (h : extractMechanism text = .ok m)
    (hq : Reads text m.equations.toNat qs) (hb : b ≠ .python) (hread : ReadableRates b ((convertOf b)^[conv]) qs)
    (hp : program b (ratesFile b cores ((convertTable (convertOf b))^[conv] m.tables.rate)) = some p) (junk : Vals)
    (hf : RadicalFree b ((convertOf b)^[conv]) qs) (hsun : Sunless b ((convertOf b)^[conv]) qs) (h2o T : ℝ) :
    ∀ e < qs.length, ∀ t t' r r', generatedRates b p junk t r h2o T e = generatedRates b p junk t' r' h2o T e := by
  intro e he t t' r r'
  rw [generated_radicalFree h hq hb hread hp junk hf h2o T e he t r r', generated_time h hq hb hread hp junk (t' := t')
    fun q hq e he v hv _ _ _ => conditions_sunless (hsun q hq e he v hv) _ _ _ _ _]

variable {num : ℚ → Str} {conv : ℕ} {junk : Vals} {f : GasFiles}

/-- **C109**: from the texts of the generated Python files. -/
theorem C109_files_python (h : extractMechanism text = .ok m) (hq : Reads text m.equations.toNat qs)
    (hpos : ∀ q ∈ qs, ∀ p ∈ chemReactants q ++ chemProducts q, 0 < p.1) (hone : WholeReactants qs) (hord : OfOrder k qs)
    (hw : Prints num id m.tables) (hf : f.WrittenPython m conv num)
    (hread : ReadableRates .numba ((convertOf .numba)^[conv]) qs)
    (hnn : NonnegRates .numba ((convertOf .numba)^[conv]) qs h2o temp)
    (hfree : RadicalFree .numba ((convertOf .numba)^[conv]) qs) (hsun : Sunless .numba ((convertOf .numba)^[conv]) qs)
    (hF : PythonSystem f m junk start h2o temp F) (hc : 0 < c) (hl : 0 < l) (hcl : c ^ (k : ℝ) = c * l)
    (hs : 0 < sim) (hb : 0 < batch) (hy0 : ∀ i, 0 ≤ y0 i)
    (hrun : runSimulation id solve zero y0 (l * sim) (l * batch) = .ok (times, rows))
    (hrun' : runSimulation id solve' zero' (scaled c y0) sim batch = .ok (times', rows'))
    (hex : ExactBatches F solve (l * batch) y0 rows.length)
    (hex' : ExactBatches F solve' batch (scaled c y0) rows'.length) :
    times = times'.map (l * ·) ∧ rows' = rows.map (scaled c) := by
  obtain ⟨p, hp, -⟩ := C66_value h hq (b := .numba) (by decide) none hread
  have hA := ((C73_system_python h hw hf (hf.rates ▸ hp)).1 hF).congr h hq
    (rates' := generatedRates .numba p fun _ => 0) fun t r e he => by
      rw [generated_textRate h hq (by decide) hread hp junk temp _ _ h2o he,
        generated_textRate h hq (by decide) hread hp (fun _ => 0) temp _ _ h2o he]
  exact C109_rows h hq hpos hone hord (C66_piecewise h hq (by decide) hread hp (fun _ => le_refl _) start hnn)
    (generated_steady h hq (by decide) hread hp _ hfree hsun h2o temp) hA hc hl hcl hs hb hy0 hrun hrun' hex hex'

/-- **C109**: from the texts of the generated Fortran files. -/
theorem C109_files_fortran (h : extractMechanism text = .ok m) (hq : Reads text m.equations.toNat qs)
    (hpos : ∀ q ∈ qs, ∀ p ∈ chemReactants q ++ chemProducts q, 0 < p.1) (hone : WholeReactants qs) (hord : OfOrder k qs)
    (hw : Prints num id m.tables) (hf : f.WrittenFortran m cores conv num)
    (hread : ReadableRates .fortran ((convertOf .fortran)^[conv]) qs)
    (hnn : NonnegRates .fortran ((convertOf .fortran)^[conv]) qs h2o temp)
    (hfree : RadicalFree .fortran ((convertOf .fortran)^[conv]) qs)
    (hsun : Sunless .fortran ((convertOf .fortran)^[conv]) qs)
    (hF : FortranSystem f m junk start h2o temp F) (hc : 0 < c) (hl : 0 < l) (hcl : c ^ (k : ℝ) = c * l)
    (hs : 0 < sim) (hb : 0 < batch) (hy0 : ∀ i, 0 ≤ y0 i)
    (hrun : runSimulation id solve zero y0 (l * sim) (l * batch) = .ok (times, rows))
    (hrun' : runSimulation id solve' zero' (scaled c y0) sim batch = .ok (times', rows'))
    (hex : ExactBatches F solve (l * batch) y0 rows.length)
    (hex' : ExactBatches F solve' batch (scaled c y0) rows'.length) :
    times = times'.map (l * ·) ∧ rows' = rows.map (scaled c) := by
  obtain ⟨p, hp, -⟩ := C66_value h hq (b := .fortran) (by decide) cores hread
  have hA := GasSystemF.congr (hF := (C73_system_fortran h hw hf (hf.rates ▸ hp)).1 hF) h hq
    (rates' := generatedRates .fortran p fun _ => 0) fun t r e he =>
      fortran_rates_eq h hq hread hp hp junk (fun _ => 0) t r h2o temp he
  exact C109_rows_fortran h hq hpos hone hord (C66_piecewise h hq (by decide) hread hp (fun _ => le_refl _) start hnn)
    (generated_steady h hq (by decide) hread hp _ hfree hsun h2o temp) hA hc hl hcl hs hb hy0 hrun hrun' hex hex'

end

/-! ## A case the theorems apply to -/

def pairText : Str := "{1.}NO+O3=NO2:1.40D-12;{2.}CH3O2+NO=HCHO:2.54D-12;".toList

def pairReactions : List RawEqn :=
  [{ reactants := [(1, "NO".toList), (1, "O3".toList)], products := [(1, "NO2".toList)], rate := "1.40D-12".toList },
   { reactants := [(1, "CH3O2".toList), (1, "NO".toList)], products := [(1, "HCHO".toList)], rate := "2.54D-12".toList }]

theorem pair_parses : extractMechanism pairText = .ok { tables := build pairReactions, equations := 2 } := by
  rw [extract_ok_iff]
  refine ⟨"2.".toList, 2, pairReactions, ?_, by decide +kernel, ?_, rfl⟩
  · rw [labels_eq _ (not_mem_removeChar _ _)]; decide +kernel
  · rw [bodies_eq _ (not_mem_removeChar _ _)]; decide +kernel

theorem pair_reads : Reads pairText 2 pairReactions := by
  unfold Reads bodyTexts; decide +kernel

theorem pair_order : OfOrder 2 pairReactions := by
  unfold OfOrder; decide +kernel

theorem pair_rates : ∀ q ∈ pairReactions, rateTextCheck .numba ((convertOf .numba)^[1] q.rate) = true := by
  decide +kernel

theorem pair_vars : ∀ q ∈ pairReactions, ∀ e, readExpr .numba ((convertOf .numba)^[1] q.rate) = some e → e.vars = [] := by
  have h : ∀ q ∈ pairReactions, ∀ e ∈ (readExpr .numba ((convertOf .numba)^[1] q.rate)).toList, e.vars = [] := by
    decide +kernel
  exact fun q hq e he => h q hq e (Option.mem_toList.2 he)

/-- All hypotheses are met by `pairText`: with three times the concentrations everything happens three times as fast. -/
theorem pair_run {start h2o temp : ℝ} (hT : 0 < temp) (hh : 0 ≤ h2o) :
    ∃ (p : List Stmt) (F : ℝ → (Fin 5 → ℝ) → Fin 5 → ℝ) (solve solve' : (Fin 5 → ℝ) → ℚ → Fin 5 → ℝ),
      program .numba (ratesFile .numba none ((convertTable (convertOf .numba))^[1] (build pairReactions).rate)) = some p ∧
      GasSystem ⟨build pairReactions, 2⟩ (generatedRates .numba p fun _ => 0) start h2o temp F ∧
      ∀ y0 : Fin 5 → ℝ, (∀ i, 0 ≤ y0 i) → ∃ rows rows',
        runSimulation id solve (fun _ => 0) y0 (3 * (((2 : ℕ) : ℚ) * 60)) (3 * 60) = .ok ([180, 360], rows) ∧
        runSimulation id solve' (fun _ => 0) (scaled 3 y0) (((2 : ℕ) : ℚ) * 60) 60 = .ok ([60, 120], rows') ∧
        rows' = rows.map (scaled 3) := by
  obtain ⟨r1, r2⟩ := rateTextCheck_reads pair_rates
  obtain ⟨p, hp, -⟩ := C66_value pair_parses pair_reads (b := .numba) (by decide) none r1
  have hreg : ∀ q ∈ pairReactions, Regular q := by
    have h : ∀ q ∈ pairReactions, chemReactants q ≠ [] ∧ (names (chemReactants q)).Nodup ∧
        GainGood q := by decide +kernel
    exact fun q hq => ⟨(h q hq).1, (h q hq).2.1, (h q hq).2.2⟩
  obtain ⟨F, hF⟩ : ∃ F : ℝ → (Fin 5 → ℝ) → Fin 5 → ℝ,
      GasSystem ⟨build pairReactions, 2⟩ (generatedRates .numba p fun _ => 0) start h2o temp F := by
    have := fun time => C55_kinetics_partial pair_parses pair_reads hreg ⟨"CH3O2".toList, by decide +kernel⟩
      (by decide +kernel) (generatedRates .numba p fun _ => 0) start h2o temp time
    choose f hf using this
    exact ⟨fun t y i => f t (stateOf y) i, by decide +kernel, fun t y => ⟨_, (hf t _).1, fun _ => rfl⟩⟩
  have hpos : ∀ q ∈ pairReactions, ∀ p ∈ chemReactants q ++ chemProducts q, 0 < p.1 := by decide +kernel
  have hone : WholeReactants pairReactions := by unfold WholeReactants; decide +kernel
  have hr := C66_piecewise pair_parses pair_reads (by decide) r1 hp (junk := fun _ => 0) (fun _ => le_refl _) start
    (C66_nonneg (by decide) r1 r2 hT hh)
  have hw : ∀ s i, (build pairReactions).index.get? s = some i → s ∉ heldConstant → ∃ w : Str → ℝ,
      (∀ s, 0 ≤ w s) ∧ 0 < w s ∧ (∀ s ∈ heldConstant, w s = 0) ∧ ∀ q ∈ pairReactions, NotGained w q := by
    intro s i hi hs
    refine ⟨fun s => if s ∈ heldConstant then 0 else 1, fun s => by dsimp only; split <;> norm_num,
      by dsimp only; rw [if_neg hs]; norm_num, fun s hs => if_pos hs, fun q hq => ?_⟩
    have hc : ∀ q ∈ pairReactions, ∃ s ∈ ["NO".toList, "CH3O2".toList], ∃ s'' ∈ ["O3".toList, "NO".toList],
        ∃ s' ∈ ["NO2".toList, "HCHO".toList],
        chemReactants q = [(1, s), (1, s'')] ∧ chemProducts q = [(1, s')] := by decide +kernel
    have hn : ∀ s ∈ ["NO".toList, "CH3O2".toList] ++ ["O3".toList, "NO".toList] ++ ["NO2".toList, "HCHO".toList],
        s ∉ heldConstant := by decide +kernel
    obtain ⟨s, h1, s'', h3, s', h2, e1, e2⟩ := hc q hq
    unfold NotGained
    rw [e1, e2]
    simp only [weight, List.map_cons, List.map_nil, List.sum_cons, List.sum_nil,
      if_neg (hn s (List.mem_append_left _ (List.mem_append_left _ h1))),
      if_neg (hn s'' (List.mem_append_left _ (List.mem_append_right _ h3))), if_neg (hn s' (List.mem_append_right _ h2))]
    norm_num
  obtain ⟨solve, hs⟩ := C61_exists pair_parses pair_reads hpos hone hw hr hF (batch := 3 * 60) (by norm_num)
  obtain ⟨solve', hs'⟩ := C61_exists pair_parses pair_reads hpos hone hw hr hF (batch := 60) (by norm_num)
  refine ⟨p, F, solve, solve', hp, hF, fun y0 hy0 => ?_⟩
  have hy3 : ∀ i, 0 ≤ scaled 3 y0 i := fun i => mul_nonneg (by norm_num) (hy0 i)
  have hrun := C32_C33_whole_batches (n := 2) (batch := 3 * 60) (by norm_num) (by norm_num)
    (exact_id (3 * 60) 2) solve (fun _ => 0) y0
  have ht : (List.range 2).map (fun k : ℕ => ((k : ℚ) + 1) * (3 * 60)) = [180, 360] := by decide +kernel
  rw [ht, mul_left_comm] at hrun
  obtain ⟨rows', hrun'⟩ := two_batches solve' (scaled 3 y0)
  refine ⟨_, rows', hrun, hrun', ?_⟩
  have hf : RadicalFree .numba ((convertOf .numba)^[1]) pairReactions :=
    fun q hq e he hv => by rw [pair_vars q hq e he] at hv; exact absurd hv List.not_mem_nil
  have hsun : Sunless .numba ((convertOf .numba)^[1]) pairReactions :=
    fun q hq e he v hv => by rw [pair_vars q hq e he] at hv; exact absurd hv List.not_mem_nil
  exact (C109_rows (l := 3) pair_parses pair_reads hpos hone pair_order hr
    (generated_steady pair_parses pair_reads (by decide) r1 hp _ hf hsun h2o temp) hF (by norm_num) (by norm_num)
    (by norm_num) (by norm_num) (by norm_num) hy0 hrun hrun' (hs y0 hy0 _) (hs' _ hy3 _)).2

end PyBox
