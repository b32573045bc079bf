import Verif.Props.Clock

/-!
# C107, continued: a simulation that stays in the night

With the batches of 100 seconds of `/repo/Gas_simulation.py` (74) a simulation started at midnight reports no photolysis,
however long it lasts.
-/

namespace PyBox

open Set Spec Rl

attribute [local irreducible] rateProgram

/-! ## Night and day -/

theorem equationOfTime_abs : |equationOfTime| ≤ 0.0895 := by
  unfold equationOfTime
  simp only
  generalize 2 * Real.pi * 149 / 365 = θ
  have c1 := Real.abs_cos_le_one θ
  have s1 := Real.abs_sin_le_one θ
  have c2 := Real.abs_cos_le_one (2 * θ)
  have s2 := Real.abs_sin_le_one (2 * θ)
  rw [abs_le] at *
  constructor <;> linarith [c1.1, c1.2, s1.1, s1.2, c2.1, c2.2, s2.1, s2.2]

/-- The sun is below the horizon in the first 100 seconds of the day. -/
theorem sunHeight_midnight {t : ℝ} (ht : t ∈ Icc (0 : ℝ) 100) : sunHeight t ≤ 0 := by
  have hpi := Real.pi_pos
  set x := 2 * Real.pi * t / 86400 - Real.pi * (0.13 / 180) + equationOfTime with hx
  have he : sunHeight t = -Real.cos x * (Real.cos latitude * Real.cos declination)
      + Real.sin latitude * Real.sin declination := by
    have h := sunHeight_noon (t - solarNoon)
    rw [add_sub_cancel] at h
    rw [h]
    congr 2
    rw [← Real.cos_sub_pi]
    congr 1
    rw [hx]
    unfold solarNoon
    field_simp
    ring
  have hxb : |x| ≤ 0.1 := by
    have h1 := abs_le.1 equationOfTime_abs
    have h2 := Real.pi_lt_d4
    have h3 : 0 ≤ Real.pi * t := mul_nonneg hpi.le ht.1
    have h4 : Real.pi * t ≤ 3.1416 * 100 := mul_le_mul h2.le ht.2 ht.1 (by norm_num)
    rw [abs_le]
    constructor <;> linarith [h1.1, h1.2]
  have hc : 0.995 ≤ Real.cos x := by
    have h := Real.one_sub_sq_div_two_le_cos (x := x)
    have h2 : x ^ 2 ≤ 0.1 ^ 2 := sq_le_sq' (by linarith [(abs_le.1 hxb).1]) (abs_le.1 hxb).2
    linarith
  obtain ⟨l1, l2⟩ := latitude_bounds
  have hd := abs_le.1 declination_abs
  have hs : (0.033 : ℝ) ≤ Real.cos (latitude + declination) := by
    have h := Real.one_sub_sq_div_two_le_cos (x := latitude + declination)
    have h2 : (latitude + declination) ^ 2 ≤ 1.39 ^ 2 :=
      sq_le_sq' (by linarith [hd.1, hd.2]) (by linarith [hd.1, hd.2])
    linarith
  rw [Real.cos_add] at hs
  have hA : Real.cos latitude * Real.cos declination ≤ 1 := by
    have a1 := Real.abs_cos_le_one latitude
    have a2 := Real.abs_cos_le_one declination
    calc _ ≤ |Real.cos latitude * Real.cos declination| := le_abs_self _
      _ = |Real.cos latitude| * |Real.cos declination| := abs_mul _ _
      _ ≤ 1 := mul_le_one₀ a1 (abs_nonneg _) a2
  have := swing_pos
  rw [he]
  nlinarith

/-- The sun is up for a while during the day. -/
theorem sunHeight_daytime : ∃ a b : ℝ, 0 ≤ a ∧ a < b ∧ b ≤ 86400 ∧ ∀ t ∈ Ioo a b, 1e-30 < sunHeight t := by
  obtain ⟨d, hd, h⟩ := exists_dusk
  have h1 : 30000 ≤ solarNoon ∧ solarNoon ≤ 60000 := by
    have h1 := abs_le.1 equationOfTime_abs
    have hpi := Real.pi_gt_d4
    have e : |equationOfTime / (2 * Real.pi)| ≤ 0.0895 / 6 := by
      rw [abs_div, abs_of_pos (by positivity : (0 : ℝ) < 2 * Real.pi)]
      exact div_le_div₀ (by norm_num) equationOfTime_abs (by norm_num) (by linarith)
    have e := abs_le.1 e
    unfold solarNoon
    constructor <;> linarith [e.1, e.2]
  refine ⟨solarNoon, solarNoon + min d 1000, by linarith, by linarith [lt_min hd.1 (by norm_num : (0 : ℝ) < 1000)],
    by linarith [min_le_right d 1000], fun t ht => ?_⟩
  have h2 : 0 ≤ t - solarNoon := by linarith [ht.1]
  have h3 : t - solarNoon < d := by linarith [ht.2, min_le_left d 1000]
  have := ((h (t - solarNoon) (by rw [abs_of_nonneg h2]; linarith [hd.2])).1).2 (by rw [abs_of_nonneg h2]; exact h3)
  rwa [add_sub_cancel] at this

/-! ## The mechanism -/

section

variable {rates : Rates} {start h2o temp : ℝ} {F : ℝ → (Fin 5 → ℝ) → Fin 5 → ℝ}

theorem radical_products (z : Fin 5 → ℝ) :
    reactionProduct radicalReactions (build radicalReactions) (stateOf z) 0 = z 0 * z 1 ∧
      reactionProduct radicalReactions (build radicalReactions) (stateOf z) 1 = z 3 := by
  have h0 := concOf_holds (build radicalReactions) (stateOf z) "CH3O2".toList 0 (by decide +kernel)
  have h1 := concOf_holds (build radicalReactions) (stateOf z) "NO".toList 1 (by decide +kernel)
  have h3 := concOf_holds (build radicalReactions) (stateOf z) "NO2".toList 3 (by decide +kernel)
  obtain ⟨q0, hq0, e0⟩ : ∃ q, radicalReactions[0]? = some q ∧ chemReactants q = [(1, "CH3O2".toList), (1, "NO".toList)] :=
    ⟨_, rfl, by decide +kernel⟩
  obtain ⟨q1, hq1, e1⟩ : ∃ q, radicalReactions[1]? = some q ∧ chemReactants q = [(1, "NO2".toList)] :=
    ⟨_, rfl, by decide +kernel⟩
  have n0 : names [((1 : ℚ), "CH3O2".toList), (1, "NO".toList)] = ["CH3O2".toList, "NO".toList] := rfl
  have n1 : names [((1 : ℚ), "NO2".toList)] = ["NO2".toList] := rfl
  have c0 : coef [((1 : ℚ), "CH3O2".toList), (1, "NO".toList)] "CH3O2".toList = 1 ∧
    coef [((1 : ℚ), "CH3O2".toList), (1, "NO".toList)] "NO".toList = 1 ∧
    coef [((1 : ℚ), "NO2".toList)] "NO2".toList = 1 := by decide +kernel
  unfold reactionProduct
  rw [hq0, hq1]
  dsimp only
  unfold codeProduct
  constructor
  · rw [e0, if_neg (by simp), n0, List.map_cons, List.map_singleton, List.prod_cons, List.prod_singleton, c0.1, c0.2.1,
      Rat.cast_one, Real.rpow_one, Real.rpow_one, ← h0, ← h1]
    rfl
  · rw [e1, if_neg (by simp), n1, List.map_singleton, List.prod_singleton, c0.2.2, Rat.cast_one, Real.rpow_one, ← h3]
    rfl

theorem radical_value (hF : GasSystem ⟨build radicalReactions, 2⟩ rates start h2o temp F) {s : Str} {i : Fin 5}
    (hi : (build radicalReactions).index.get? s = some (i : ℕ)) (hs : s ∉ heldConstant) (t : ℝ) (z : Fin 5 → ℝ) :
    F t z i = netRecorded (build radicalReactions) s 0 * (z 0 * z 1 * rates (start + t) (z 0) h2o temp 0) +
      netRecorded (build radicalReactions) s 1 * (z 3 * rates (start + t) (z 0) h2o temp 1) := by
  have hsum : ((ro2Indices (build radicalReactions).index).map (stateOf z)).sum = z 0 := by
    have : ro2Indices (build radicalReactions).index = [0] := by decide +kernel
    rw [this, List.map_singleton, List.sum_singleton]
    rfl
  rw [(hF.kinetic radical_parses radical_reads).value s i hi]
  unfold kineticValue
  rw [if_neg hs, show radicalReactions.length = 2 from rfl, Finset.sum_range_succ, Finset.sum_range_succ,
    Finset.sum_range_zero, zero_add, hsum, (radical_products z).1, (radical_products z).2]

theorem radical_names : ∀ i : Fin 5, ∃ s, (build radicalReactions).index.get? s = some (i : ℕ) := by
  intro i
  obtain ⟨s, hs⟩ := (C01_indices radical_parses (i : ℕ)).2 (by
    have : (build radicalReactions).species.length = 5 := by decide +kernel
    rw [this]
    exact i.2)
  exact ⟨s, hs⟩

end

/-- What the rate file makes of `J(4)`. -/
theorem radical_light {p : List Stmt} (hp : program .numba (ratesFile .numba none
      ((convertTable (convertOf .numba))^[1] (build radicalReactions).rate)) = some p) :
    ∃ l m n : ℚ, 0 < l ∧ 0 < m ∧ 0 < n ∧ ∀ t r h2o T,
      generatedRates .numba p (fun _ => 0) t r h2o T 1 = photolysisRate t l m n := by
  obtain ⟨n1, -⟩ := rateTextCheck_reads radical_rates.1
  obtain ⟨p', hp', hval⟩ := C66_value radical_parses radical_reads (b := .numba) (by decide) none n1
  rw [hp] at hp'
  obtain rfl := Option.some.inj hp'
  have hread : readExpr .numba ((convertOf .numba)^[1] "J(4)".toList) = some (.var (Backend.numba.slot 4)) := by
    decide +kernel
  have hfind : (photolysisTable.find? fun row => decide (Backend.numba.slot 4 = Backend.numba.slot row.1)).isSome := by
    decide +kernel
  obtain ⟨⟨k, l, m, n⟩, hrow⟩ := Option.isSome_iff_exists.1 hfind
  obtain ⟨s1, s2, s3⟩ := table_signs _ (find_slot hrow).1
  refine ⟨l, m, n, s1, s2, s3, fun t r h2o T => ?_⟩
  rw [(hval _ T t r h2o).1 1 _ _ rfl hread]
  unfold Ex.val conditions
  rw [hrow]

/-! ## The simulation -/

/-- **C107**: a simulation of `radicalText` (peroxy radicals with NO, and `NO2` destroyed by light) started at midnight
with `NO2` and without peroxy radicals. However long it lasts, in batches of 100 seconds it reports what it began with.
The uninterrupted solution has less `NO2` after a day. -/
theorem C107_night {p : List Stmt} (hp : program .numba (ratesFile .numba none
      ((convertTable (convertOf .numba))^[1] (build radicalReactions).rate)) = some p)
    {h2o temp : ℝ} (hT : 0 < temp) (hh : 0 ≤ h2o) {F : ℝ → (Fin 5 → ℝ) → Fin 5 → ℝ}
    (hF : GasSystem ⟨build radicalReactions, 2⟩ (generatedRates .numba p fun _ => 0) 0 h2o temp F)
    {y0 : Fin 5 → ℝ} (hy0 : ∀ i, 0 ≤ y0 i) (hro2 : y0 0 = 0) (hno2 : 0 < y0 3) :
    (∀ (solve : (Fin 5 → ℝ) → ℚ → Fin 5 → ℝ) (sim : ℚ) zero times rows, 0 < sim →
      runSimulation id solve zero y0 sim 100 = .ok (times, rows) → ExactBatches F solve 100 y0 rows.length →
      ∀ row ∈ rows, row = y0) ∧
    (∃ W, W 0 = y0 ∧ SolvesOn F W 0 86400) ∧ ∀ W, W 0 = y0 → SolvesOn F W 0 86400 → W 86400 3 < y0 3 := by
  obtain ⟨r1, r2⟩ := rateTextCheck_reads radical_rates.1
  have hr := C66_piecewise radical_parses radical_reads (by decide) r1 hp (junk := fun _ => 0) (fun _ => le_refl _) 0
    (C66_nonneg (by decide) r1 r2 hT hh)
  have hk := hF.kinetic radical_parses radical_reads
  have hTame := hk.tame radical_parses (recorded_loss_only radical_parses radical_reads radical_positive.1).1
    (left_pos radical_positive.1) radical_positive.2 hr.regular
  have hB := hk.boxPieces radical_parses radical_positive.2 hr
  obtain ⟨l, m, n, hl, hm, hn, hlight⟩ := radical_light hp
  refine ⟨fun solve sim zero times rows hs hrun hex => ?_, ?_, fun W hW0 hW => ?_⟩
  · refine hTame.rows_still hB hs (by norm_num) hy0 (fun t ht => ?_) hrun hex
    funext i
    obtain ⟨s, hi⟩ := radical_names i
    have hdark : photolysisRate t l m n = 0 := by
      unfold photolysisRate
      have h100 : t ≤ 100 := by
        have := ht.2.le
        push_cast at this
        exact this
      have := sunHeight_midnight ⟨ht.1, h100⟩
      rw [if_pos (this.trans (by norm_num))]
    by_cases hs : s ∈ heldConstant
    · rw [hk.value s i hi]
      unfold kineticValue
      rw [if_pos hs]
      rfl
    · rw [radical_value hF hi hs, hlight, zero_add, hdark, hro2]
      simp
  · exact hTame.solution_pieces hB (hk.dissipative radical_parses radical_reads
      (recorded_lightWeights radical_parses radical_reads radical_positive.1) hr.regular.nonneg radical_weights) hy0
      (by norm_num)
  · have hW1 := hTame.nonneg hW (by rw [hW0]; exact hy0)
    have c0 : (build radicalReactions).index.get? "CH3O2".toList = some ((0 : Fin 5) : ℕ) ∧
        "CH3O2".toList ∉ heldConstant := by decide +kernel
    have c3 : (build radicalReactions).index.get? "NO2".toList = some ((3 : Fin 5) : ℕ) ∧
        "NO2".toList ∉ heldConstant := by decide +kernel
    have k0 : netRecorded (build radicalReactions) "CH3O2".toList 0 = -1 ∧
        netRecorded (build radicalReactions) "CH3O2".toList 1 = 0 ∧
        netRecorded (build radicalReactions) "NO2".toList 0 = 1 ∧
        netRecorded (build radicalReactions) "NO2".toList 1 = -1 := by
      have q : recorded (build radicalReactions).gain "CH3O2".toList 0 = 0 ∧
          recorded (build radicalReactions).loss "CH3O2".toList 0 = 1 ∧
          recorded (build radicalReactions).gain "CH3O2".toList 1 = 0 ∧
          recorded (build radicalReactions).loss "CH3O2".toList 1 = 0 ∧
          recorded (build radicalReactions).gain "NO2".toList 0 = 1 ∧
          recorded (build radicalReactions).loss "NO2".toList 0 = 0 ∧
          recorded (build radicalReactions).gain "NO2".toList 1 = 0 ∧
          recorded (build radicalReactions).loss "NO2".toList 1 = 1 := by decide +kernel
      obtain ⟨q1, q2, q3, q4, q5, q6, q7, q8⟩ := q
      unfold netRecorded
      rw [q1, q2, q3, q4, q5, q6, q7, q8]
      norm_num
    have f0 := fun t z => radical_value hF c0.1 c0.2 t z
    have f3 := fun t z => radical_value hF c3.1 c3.2 t z
    rw [k0.1, k0.2.1] at f0
    rw [k0.2.2.1, k0.2.2.2] at f3
    simp only [zero_mul, add_zero, neg_one_mul, one_mul, zero_add, hlight] at f0 f3
    obtain ⟨hc, S, hS, hd⟩ := hW
    have hci : ∀ i, ContinuousOn (fun t => W t i) (Icc 0 86400) := fun i => continuousOn_pi.1 hc i
    have hdi : ∀ i, ∀ t ∈ Ico (0 : ℝ) 86400, t ∉ S → HasDerivWithinAt (fun t => W t i) (F t (W t) i) (Ici t) t :=
      fun i t ht htS => hasDerivWithinAt_pi.1 (hd t ht htS) i
    have hrate : ∀ t r, 0 ≤ r → 0 ≤ generatedRates .numba p (fun _ => 0) t r h2o temp 0 := fun t r hr0 => by
      have := (hr 0).1 t r hr0
      rwa [zero_add] at this
    -- no peroxy radicals are made
    have w0 : ∀ t ∈ Icc (0 : ℝ) 86400, W t 0 = 0 := by
      intro t ht
      refine le_antisymm ?_ (hW1 t ht 0)
      rw [← hro2, ← hW0]
      refine le_off_finite hS (f := fun t => W t 0) (f' := fun t => F t (W t) 0) ht.1
        ((hci 0).mono (Icc_subset_Icc le_rfl ht.2)) fun s hs hsS => ?_
      have hs' : s ∈ Icc (0 : ℝ) 86400 := ⟨hs.1, hs.2.le.trans ht.2⟩
      refine ⟨hdi 0 s ⟨hs.1, hs.2.trans_le ht.2⟩ hsS, ?_⟩
      rw [f0]
      have := mul_nonneg (mul_nonneg (hW1 s hs' 0) (hW1 s hs' 1)) (hrate s _ (hW1 s hs' 0))
      linarith
    have hJ : ∀ t, 0 ≤ photolysisRate t l m n := by
      intro t
      unfold photolysisRate
      split
      · exact le_rfl
      · rename_i h
        have : 0 < sunHeight t := lt_trans (by norm_num) (not_le.1 h)
        have : (0 : ℝ) < l := by exact_mod_cast hl
        positivity
    have f3' : ∀ t ∈ Icc (0 : ℝ) 86400, F t (W t) 3 = -(W t 3 * photolysisRate t l m n) := by
      intro t ht
      rw [f3, w0 t ht]
      ring
    have hanti : ∀ a b : ℝ, 0 ≤ a → a ≤ b → b ≤ 86400 → W b 3 ≤ W a 3 := by
      intro a b ha hab hb
      refine le_off_finite hS (f := fun t => W t 3) (f' := fun t => F t (W t) 3) hab
        ((hci 3).mono (Icc_subset_Icc ha hb)) fun s hs hsS => ?_
      have hs' : s ∈ Icc (0 : ℝ) 86400 := ⟨ha.trans hs.1, hs.2.le.trans hb⟩
      refine ⟨hdi 3 s ⟨ha.trans hs.1, hs.2.trans_le hb⟩ hsS, ?_⟩
      rw [f3' s hs']
      have := mul_nonneg (hW1 s hs' 3) (hJ s)
      linarith
    by_contra hge
    have hend : W 86400 3 = y0 3 := by
      refine le_antisymm ?_ (not_lt.1 hge)
      have := hanti 0 86400 le_rfl (by norm_num) le_rfl
      rwa [hW0] at this
    have hconst : ∀ t ∈ Icc (0 : ℝ) 86400, W t 3 = y0 3 := by
      intro t ht
      refine le_antisymm ?_ ?_
      · have := hanti 0 t le_rfl ht.1 ht.2
        rwa [hW0] at this
      · rw [← hend]
        exact hanti t 86400 ht.1 ht.2 le_rfl
    obtain ⟨a, b, ha, hab, hb, hsun⟩ := sunHeight_daytime
    obtain ⟨t, ht, htS⟩ := ((Ioo_infinite hab).sdiff hS).nonempty
    have ht' : t ∈ Ico (0 : ℝ) 86400 := ⟨ha.trans ht.1.le, ht.2.trans_le hb⟩
    have h1 := hdi 3 t ht' htS
    have h2 : HasDerivWithinAt (fun t => W t 3) 0 (Ici t) t := by
      refine (hasDerivWithinAt_const t (Ici t) (y0 3)).congr_of_eventuallyEq ?_ (hconst t ⟨ht'.1, ht'.2.le⟩)
      filter_upwards [Icc_mem_nhdsGE ht'.2] with s hs
      exact hconst s ⟨ht'.1.trans hs.1, hs.2⟩
    have h3 := (uniqueDiffWithinAt_Ici t).eq_deriv _ h1 h2
    rw [f3' t ⟨ht'.1, ht'.2.le⟩, hconst t ⟨ht'.1, ht'.2.le⟩, neg_eq_zero, mul_eq_zero] at h3
    rcases h3 with h3 | h3
    · exact hno2.ne' h3
    · have h4 : 0 < sunHeight t := lt_trans (by norm_num) (hsun t ht)
      have h5 : (0 : ℝ) < l := by exact_mod_cast hl
      unfold photolysisRate at h3
      rw [if_neg (not_le.2 (hsun t ht))] at h3
      have : 0 < (l : ℝ) * sunHeight t ^ (m : ℝ) * Real.exp (-(n : ℝ) / sunHeight t) := by positivity
      exact this.ne' h3

/-- The hypotheses are met: there is such a system, and batches of a day are harmless for it. -/
example {h2o temp : ℝ} : ∃ p F, program .numba (ratesFile .numba none
      ((convertTable (convertOf .numba))^[1] (build radicalReactions).rate)) = some p ∧
    GasSystem ⟨build radicalReactions, 2⟩ (generatedRates .numba p fun _ => 0) 0 h2o temp (F : ℝ → (Fin 5 → ℝ) → Fin 5 → ℝ) ∧
    ClockHarmless .numba ((convertOf .numba)^[1]) radicalReactions 86400 := by
  obtain ⟨r1, -⟩ := rateTextCheck_reads radical_rates.1
  obtain ⟨p, hp, -⟩ := C66_value radical_parses radical_reads (b := .numba) (by decide) none r1
  obtain ⟨F, hF⟩ := radical_system (generatedRates .numba p (fun _ => 0)) 0 h2o temp
  exact ⟨p, F, hp, hF, .inl ⟨1, by norm_num⟩⟩

/-- The first reaction alone has no photolysis. -/
example : Sunless .numba ((convertOf .numba)^[1]) (radicalReactions.take 1) := by
  have h : ∀ q ∈ radicalReactions.take 1, ∀ e ∈ (readExpr .numba ((convertOf .numba)^[1] q.rate)).toList,
      ∀ v ∈ e.vars, v ∉ photolysisTable.map fun r => Backend.numba.slot r.1 := by decide +kernel
  exact fun q hq e he v hv => h q hq e (Option.mem_toList.2 he) v hv

end PyBox
