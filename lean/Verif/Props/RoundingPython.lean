import Verif.Rate.FactsDouble
import Verif.Props.RoundingTexts

/-!
# C91: the rate coefficients of the Python version in double precision

The rate file for numba, run with all numbers in double precision. `/repo/Parse_eqn_file.py` lines 810–1277.
-/

namespace PyBox

open Rl Spec

attribute [local irreducible] dRateProgram rateProgram dKnown dBefore dAfter dToSun

/-! ### The parts of the program -/

theorem double_facts :
    ((doublesRun (rateProgram .numba)).isSome = true ∧
      (dRateProgram.dropWhile KStmt.noTrunc).head? = some dHourStmt) ∧
    ((dAfter.drop 5).take 1 = [dUpStmt] ∧ (dAfter.drop 6).take 36 = photolysisTable.map dRowStmt ∧
      (dAfter.drop 42).all (KStmt.isAsg fun v => decide (v.name ≠ Backend.numba.name "J".toList)) = true) ∧
    (checkRun dErrors dBefore dStart = some dState ∧ checkRun dHeightErrors dToSun dHourState = some dHeightState ∧
      checkRun dUnknown (dHourStmt :: dAfter) dState = some dKnown) ∧
    ((symRun [] (dBefore.map KStmt.erase)).get wholeVar = .var wholeVar ∧
      (symRun [] (dBefore.map KStmt.erase)).get dDayVar =
        .add (.sub (.num 150) (.num 1)) (.div (.var (nm "ttime")) (.num 86400)) ∧
      norm ((symRun [] (dBefore.map KStmt.erase ++ .asg dHourVar dHourEx :: dToSun.map KStmt.erase)).get cosxVar) =
        norm heightEx) ∧ dRateProgram.all KStmt.kinds = true ∧ dRateProgram.all KStmt.noFloor = true := by
  have h := facts_double
  unfold doubleFacts at h
  simp only [Bool.and_eq_true] at h
  obtain ⟨⟨⟨⟨⟨⟨⟨⟨⟨⟨⟨⟨h1, h2⟩, h3⟩, h4⟩, h5⟩, h6⟩, h7⟩, h8⟩, h9⟩, h10⟩, h11⟩, h12⟩, h13⟩ := h
  exact ⟨⟨h1, of_decide_eq_true h2⟩, ⟨of_decide_eq_true h3, of_decide_eq_true h4, h5⟩, ⟨of_decide_eq_true h6,
    of_decide_eq_true h7, of_decide_eq_true h8⟩, ⟨of_decide_eq_true h9, of_decide_eq_true h10, of_decide_eq_true h11⟩, h12, h13⟩

/-- The fixed part in double precision. -/
theorem dRate_double : InDouble (rateProgram .numba) dRateProgram := by
  obtain ⟨⟨h, -⟩, -⟩ := double_facts
  obtain ⟨k, hk⟩ := Option.isSome_iff_exists.1 h
  have : dRateProgram = k := by unfold dRateProgram; rw [hk]; rfl
  rw [this]
  exact doublesRun_spec hk

theorem dHour_split : dRateProgram = dBefore ++ (dHourStmt :: dAfter) := by
  obtain ⟨⟨-, h2⟩, -⟩ := double_facts
  have hd : dRateProgram.dropWhile KStmt.noTrunc = dHourStmt :: dAfter := by
    unfold dAfter
    rcases hc : dRateProgram.dropWhile KStmt.noTrunc with - | ⟨a, l⟩
    · rw [hc] at h2; cases h2
    · rw [hc] at h2
      rw [Option.some.inj h2]
      rfl
  rw [← hd]
  unfold dBefore
  exact (List.takeWhile_append_dropWhile).symm

theorem dDay_value (env : Vals) : run env (dBefore.map KStmt.erase) dDayVar = 149 + env (nm "ttime") / 86400 := by
  obtain ⟨-, -, -, ⟨-, h, -⟩, -⟩ := double_facts
  rw [run_eq_sym, h]
  simp only [Ex.val]
  push_cast
  ring

theorem dSun_split : dAfter = dToSun ++ (dUpStmt :: (photolysisTable.map dRowStmt ++ dAfter.drop 42)) := by
  obtain ⟨-, ⟨h1, h2, -⟩, -⟩ := double_facts
  have e1 : dAfter = dToSun ++ dAfter.drop 5 := by
    unfold dToSun; exact (List.take_append_drop 5 dAfter).symm
  have e2 : dAfter.drop 5 = dUpStmt :: dAfter.drop 6 := by
    have := (List.take_append_drop 1 (dAfter.drop 5)).symm
    rw [h1, List.drop_drop] at this
    exact this
  have e3 : dAfter.drop 6 = photolysisTable.map dRowStmt ++ dAfter.drop 42 := by
    have := (List.take_append_drop 36 (dAfter.drop 6)).symm
    rw [h2, List.drop_drop] at this
    exact this
  rw [← e3, ← e2, ← e1]

/-! ### The generic coefficients -/

theorem dStart_sound {T t r h2o : ℝ} {junk : Vals} (h1 : 200 ≤ T) (h2 : T ≤ 330) (hr : 0 ≤ r) (hh : 0 ≤ h2o)
    (ht : 0 ≤ t) (ht' : t ≤ 1000000000) {E : Vals} (hE : ∀ v, v ≠ wholeVar → E v = ambient .numba T t r h2o junk v) :
    dStart.Sound E (ambient .numba T t r h2o junk) := by
  intro v
  unfold dStart
  rw [ErrSt.get]
  split
  · rename_i hv
    have : (⟨chars% "temp", none⟩ : Var) = Backend.numba.var "temp" := by decide
    rw [← hv]
    dsimp only
    rw [hE _ (by decide), this, ambient_temp]
    have hT : 0 < T := by linarith
    refine ⟨?_, ⟨hT, ?_, ?_⟩, ?_, ?_, ?_⟩
    · exact ⟨by norm_num, hT.le, by norm_num, by norm_num⟩
    · refine le_trans ?_ (Real.log_le_log (by norm_num) h1)
      have := (log_rat (q := 200) (by norm_num)).1
      refine le_trans ?_ (by exact_mod_cast this)
      have hq : (5.285 : ℚ) ≤ logLo 200 := by decide +kernel
      exact_mod_cast hq
    · refine le_trans (Real.log_le_log hT h2) ?_
      have := (log_rat (q := 330) (by norm_num)).2
      refine le_trans (by exact_mod_cast this) ?_
      have hq : logHi 330 ≤ (5.806 : ℚ) := by decide +kernel
      exact_mod_cast hq
    · show ((200 : ℚ) : ℝ) ≤ T
      push_cast; exact h1
    · show T ≤ ((330 : ℚ) : ℝ)
      push_cast; exact h2
    · simp
  rw [ErrSt.get]
  split
  · rename_i hv
    have : (⟨chars% "H2O", none⟩ : Var) = Backend.numba.var "H2O" := by decide
    rw [← hv]
    dsimp only
    rw [hE _ (by decide), this, ambient_H2O]
    exact ⟨⟨by norm_num, hh, by norm_num, by norm_num⟩, trivial, trivial⟩
  rw [ErrSt.get]
  split
  · rename_i hv
    have : (⟨chars% "RO2", none⟩ : Var) = Backend.numba.var "RO2" := by decide
    rw [← hv]
    dsimp only
    rw [hE _ (by decide), this, ambient_RO2]
    exact ⟨⟨by norm_num, hr, by norm_num, by norm_num⟩, trivial, trivial⟩
  rw [ErrSt.get]
  split
  · rename_i hv
    have : (⟨chars% "ttime", none⟩ : Var) = Backend.numba.var "ttime" := by decide
    rw [← hv]
    dsimp only
    rw [hE _ (by decide), this, ambient_ttime]
    refine ⟨trivial, trivial, ?_, ?_, ?_⟩
    · show ((0 : ℚ) : ℝ) ≤ t
      push_cast; exact ht
    · show t ≤ ((1000000000 : ℚ) : ℝ)
      push_cast; exact ht'
    · simp
  · exact Err.top_holds _ _

/-- What the analysis finds about the fixed part. -/
theorem double_errors {T t r h2o : ℝ} {junk env : Vals} (h1 : 200 ≤ T) (h2 : T ≤ 330) (hr : 0 ≤ r) (hh : 0 ≤ h2o)
    (ht : 0 ≤ t) (ht' : t ≤ 1000000000) (h : EvRun ieee (ambient .numba T t r h2o junk) dRateProgram env) :
    dKnown.Sound (run (ambient .numba T t r h2o junk) (rateProgram .numba)) env := by
  obtain ⟨-, -, ⟨c1, -, c2⟩, -⟩ := double_facts
  rw [← dRate_double.1, dHour_split, List.map_append, run_append]
  rw [dHour_split] at h
  obtain ⟨mid, g1, g2⟩ := evRun_append.1 h
  exact checkRun_sound c2 (checkRun_sound c1 (dStart_sound h1 h2 hr hh ht ht' fun _ _ => rfl) g1) g2

theorem double_ratios : ∀ s ∈ steadyCoefficients,
    (match (ErrSt.get dKnown (Backend.numba.var s)).ratio with
      | some d => decide (d ≤ 9 / 10000000000000)
      | none => false) = true := by decide +kernel

/-- **C91** (the generic coefficients): the rate file of the Python version, with all numbers in double precision,
gives every generic rate coefficient within a factor `exp (±9e-13)` of its value in real numbers. -/
theorem C91_coefficients {T t r h2o : ℝ} {junk env : Vals} (h1 : 200 ≤ T) (h2 : T ≤ 330) (hr : 0 ≤ r) (hh : 0 ≤ h2o)
    (ht : 0 ≤ t) (ht' : t ≤ 1000000000) {k : List KStmt} (hk : InDouble (rateProgram .numba) k)
    (h : EvRun ieee (ambient .numba T t r h2o junk) k env) {s : String} (hs : s ∈ steadyCoefficients) :
    WithinFactor 9e-13 (run (ambient .numba T t r h2o junk) (rateProgram .numba) (Backend.numba.var s))
      (env (Backend.numba.var s)) := by
  obtain rfl : k = dRateProgram := Option.some.inj ((inDouble_unique hk).symm.trans (inDouble_unique dRate_double))
  have hk := (double_errors h1 h2 hr hh ht ht' h (Backend.numba.var s)).ratio
  have hd := double_ratios s hs
  split at hd
  · rename_i d hd'
    rw [hd'] at hk
    refine within_mono (ratio_within hk) ?_
    have : (d : ℝ) ≤ ((9 / 10000000000000 : ℚ) : ℝ) := by exact_mod_cast of_decide_eq_true hd
    refine this.trans (le_of_eq ?_)
    norm_num
  · cases hd

/-! ### The height of the sun -/

/-- The hour: the fraction of the day, cut off at the day the computed time falls in. -/
theorem dHour_ev {env : Vals} {r : KVal} (h : Ev ieee env (.bin .mul (.bin .sub (.var dDayVar)
      (.call .trunc (.var dDayVar))) (.num 24 (.real .double))) r) (h1 : 0 ≤ env dDayVar) (h2 : env dDayVar ≤ 20000) :
    |r.toReal - 24 * (env dDayVar - ⌊env dDayVar⌋)| ≤ 1e-13 := by
  have hf0 := Int.fract_nonneg (env dDayVar)
  have hf1 := Int.fract_lt_one (env dDayVar)
  have hfr : env dDayVar - ⌊env dDayVar⌋ = Int.fract (env dDayVar) := rfl
  have hsub : ∀ v, Ev ieee env (.bin .sub (.var dDayVar) (.call .trunc (.var dDayVar))) v →
      ∃ z, v = .real .double z ∧ |z - (env dDayVar - ⌊env dDayVar⌋)| ≤ 2⁻¹ ^ 52 := by
    intro v hv
    cases hv with
    | binInt g1 _ => have := ev_var g1; cases this
    | @binReal _ _ _ _ _ _ x' y' _ g1 g2 g3 g4 g5 g6 g7 =>
      obtain rfl := ev_var g1
      cases g2 with
      | call hh => cases hh
      | trunc g2 =>
        have gg := ev_var g2
        cases gg
        rw [if_pos h1] at g3 g5
        have : some Prec.double = some _ := g3
        obtain rfl := Option.some.inj this
        have e1 : x' = env dDayVar := g4
        have e2 : y' = ((⌊env dDayVar⌋ : ℤ) : ℝ) := by
          refine g5.2 ?_
          have z0 : (0 : ℤ) ≤ ⌊env dDayVar⌋ := Int.floor_nonneg.2 h1
          have z1 : ⌊env dDayVar⌋ ≤ (20000 : ℤ) := by
            have : ((⌊env dDayVar⌋ : ℤ) : ℝ) ≤ ((20000 : ℤ) : ℝ) := by
              push_cast
              exact (Int.floor_le _).trans h2
            exact_mod_cast this
          rw [abs_of_nonneg z0]
          exact z1.trans (by decide)
        rw [e1, e2] at g7
        refine ⟨_, rfl, ?_⟩
        have g7 : |_ - (env dDayVar - ⌊env dDayVar⌋)| ≤ 2⁻¹ ^ 52 * |env dDayVar - ⌊env dDayVar⌋| := g7
        refine g7.trans ?_
        rw [hfr, abs_of_nonneg hf0]
        nlinarith [show (0 : ℝ) ≤ 2⁻¹ ^ 52 by positivity]
  obtain ⟨x, y, z, p, g1, g2, g3, rfl, g4⟩ := ev_bin (pb := .double) h (fun v hv => (hsub v hv).imp fun _ => And.left)
    (fun v hv => (ev_lit hv).imp fun _ => And.left)
  obtain ⟨x', hx', hx⟩ := hsub _ g1
  cases hx'
  obtain ⟨y', hy', -, hy⟩ := ev_lit g2
  cases hy'
  obtain rfl := Option.some.inj (show some Prec.double = some p from g3)
  have hy24 := hy (isExact_exact (by decide +kernel))
  rw [hy24] at g4
  have g4 : |z - x * ((24 : ℚ) : ℝ)| ≤ 2⁻¹ ^ 52 * |x * ((24 : ℚ) : ℝ)| := g4
  push_cast at g4
  rw [hfr] at hx ⊢
  show |z - 24 * Int.fract (env dDayVar)| ≤ 1e-13
  have hu : (2⁻¹ : ℝ) ^ 52 ≤ 3e-16 := by norm_num
  have hxx : |x| ≤ 2 := by
    obtain ⟨a1, a2⟩ := abs_le.1 (hx.trans hu)
    rw [abs_le]; constructor <;> linarith
  have h3 : |x * 24| ≤ 48 := by rw [abs_mul, abs_of_pos (show (0 : ℝ) < 24 by norm_num)]; linarith
  have h4 : |z - x * 24| ≤ 3e-16 * 48 := g4.trans (mul_le_mul hu h3 (abs_nonneg _) (by norm_num))
  obtain ⟨b1, b2⟩ := abs_le.1 h4
  obtain ⟨a1, a2⟩ := abs_le.1 (hx.trans hu)
  rw [abs_le]; constructor <;> linarith

/-- The computed height of the sun is within `6e-11` of the true one. -/
theorem dHeight_near {T t r h2o : ℝ} {junk env : Vals} (h1 : 200 ≤ T) (h2 : T ≤ 330) (hr : 0 ≤ r) (hh : 0 ≤ h2o)
    (ht : 0 ≤ t) (ht' : t ≤ 1000000000)
    (h : EvRun ieee (ambient .numba T t r h2o junk) (dBefore ++ (dHourStmt :: dToSun)) env) :
    |env cosxVar - sunHeight t| ≤ 6e-11 ∧ 0 < env limitVar ∧ env limitVar ≤ 1e-29 := by
  obtain ⟨-, -, ⟨h4, h5, -⟩, ⟨h6, -, h7⟩, -⟩ := double_facts
  obtain ⟨mid, hb, hrr⟩ := evRun_append.1 h
  cases hrr with
  | cons hh' hs =>
  cases hh' with
  | @asg _ _ val hh' =>
  have hgen : ∀ k : ℤ, dState.Sound
      (run (Function.update (ambient .numba T t r h2o junk) wholeVar k) (dBefore.map KStmt.erase)) mid :=
    fun k => checkRun_sound h4 (dStart_sound h1 h2 hr hh ht ht' fun v hv => Function.update_of_ne hv _ _) hb
  have htime : nm "ttime" = Backend.numba.var "ttime" := by decide
  have hday : ∀ k : ℤ, run (Function.update (ambient .numba T t r h2o junk) wholeVar k)
      (dBefore.map KStmt.erase) dDayVar = 149 + t / 86400 := by
    intro k
    rw [dDay_value, Function.update_of_ne (by decide), htime, ambient_ttime]
  have hday' : ∀ k : ℤ, |mid dDayVar - (149 + t / 86400)| ≤ 71e-13 := by
    intro k
    have := (hgen k dDayVar).range
    have hg : (dState.get dDayVar).range = some (149, 12000, 71e-13) := by decide +kernel
    rw [hg] at this
    have := this.2.2
    rw [hday] at this
    refine this.trans (le_of_eq ?_)
    norm_num
  have hd0 := hday' 0
  obtain ⟨a1, a2⟩ := abs_le.1 hd0
  have hq : t / 86400 ≤ 12000 := by
    rw [div_le_iff₀ (by norm_num)]; linarith
  have hq0 : 0 ≤ t / 86400 := by positivity
  have hm0 : 0 ≤ mid dDayVar := by linarith
  have hm1 : mid dDayVar ≤ 20000 := by linarith
  have hhour := dHour_ev hh' hm0 hm1
  set k : ℤ := ⌊mid dDayVar⌋ with hk
  set E := Function.update (ambient .numba T t r h2o junk) wholeVar (k : ℝ) with hE
  set R := run E (dBefore.map KStmt.erase) with hR
  have hRk : R wholeVar = k := by
    rw [hR, run_eq_sym, h6]
    show E wholeVar = k
    rw [hE, Function.update_self]
  have hRd : R dDayVar = 149 + t / 86400 := hday k
  have hval : dHourEx.val R = 24 * (149 + t / 86400 - k) := by
    unfold dHourEx
    simp only [Ex.val]
    rw [hRd, hRk]
    push_cast
    ring
  have hk0 := Int.floor_le (mid dDayVar)
  have hk1 := Int.lt_floor_add_one (mid dDayVar)
  have hsound : dHourState.Sound (Function.update R dHourVar (dHourEx.val R))
      (Function.update mid dHourVar val.toReal) := by
    refine sound_update (hgen k) dHourVar (i := ⟨none, none, some (-1, 25, 18e-11)⟩) ⟨trivial, trivial, ?_, ?_, ?_⟩
    · rw [hval]; push_cast; linarith
    · rw [hval]; push_cast; linarith
    · rw [hval]
      push_cast
      obtain ⟨b1, b2⟩ := abs_le.1 hhour
      rw [abs_le]
      constructor <;> linarith
  have hfin := checkRun_sound h5 hsound hs
  have hrun : run (Function.update R dHourVar (dHourEx.val R)) (dToSun.map KStmt.erase) =
      run E (dBefore.map KStmt.erase ++ .asg dHourVar dHourEx :: dToSun.map KStmt.erase) := by
    rw [run_append]
    rfl
  refine ⟨?_, ?_⟩
  · have := (hfin cosxVar).range
    have hg : (dHeightState.get cosxVar).range = some (-2, 2, 6e-11) := by decide +kernel
    rw [hg] at this
    have := this.2.2
    rw [hrun, run_eq_sym, ← norm_val, h7, norm_val, height_val E (t := t) ?_ (k := k)] at this
    · refine this.trans (le_of_eq ?_)
      norm_num
    · rw [hE, Function.update_self]
    · rw [htime, hE, Function.update_of_ne (by decide), ambient_ttime]
  · have h1 := (hfin limitVar).ratio
    have h2 := (hfin limitVar).logs
    have hg : (dHeightState.get limitVar) = ⟨some 300e-18, some (-69.088, -69.065), none⟩ := by decide +kernel
    rw [hg] at h1 h2
    set x := run (Function.update R dHourVar (dHourEx.val R)) (dToSun.map KStmt.erase) limitVar
    have h2 : LogIn ((-69.088 : ℚ) : ℝ) ((-69.065 : ℚ) : ℝ) x := h2
    have h1 : Ratio ((300e-18 : ℚ) : ℝ) x (env limitVar) := h1
    have hpos := h1.pos h2.1
    refine ⟨hpos, ?_⟩
    have hlog := (abs_le.1 (h1.log h2.1)).2
    have h3 := h2.2.2
    push_cast at hlog h3
    rw [← Real.exp_log hpos]
    refine (Real.exp_le_exp.2 (show Real.log (env limitVar) ≤ -69 by linarith)).trans ?_
    have : Real.exp (-69) = (Real.exp 1 ^ 69)⁻¹ := by
      rw [← Real.exp_nat_mul, ← Real.exp_neg]; norm_num
    rw [this, inv_le_comm₀ (by positivity) (by norm_num)]
    refine le_trans ?_ (pow_le_pow_left₀ (by norm_num) Real.exp_one_gt_d9.le 69)
    norm_num

/-! ### The photolysis rates -/

theorem dRows_run {R : Rounding} : ∀ {rows : List (Nat × ℚ × ℚ × ℚ)} {env out : Vals}, (rows.map Prod.fst).Nodup →
    EvRun R env (rows.map dRowStmt) out →
    (∀ v : Var, (∀ k ∈ rows.map Prod.fst, v ≠ Backend.numba.slot k) → out v = env v) ∧
    ∀ row ∈ rows, ∃ (mid : Vals) (r : KVal), mid cosxVar = env cosxVar ∧ mid secxVar = env secxVar ∧
      Ev R mid (dRowEx row.2.1 row.2.2.1 row.2.2.2) r ∧ out (Backend.numba.slot row.1) = r.toReal := by
  intro rows
  induction rows with
  | nil => intro env out _ h; cases h; exact ⟨fun _ _ => rfl, fun _ hr => by cases hr⟩
  | cons a rows ih =>
    intro env out hnd h
    rw [List.map_cons, List.nodup_cons] at hnd
    cases h with
    | cons h1 h2 =>
      cases h1 with
      | @asg _ _ r h1 =>
        obtain ⟨g1, g2⟩ := ih hnd.2 h2
        have c1 : cosxVar ≠ Backend.numba.slot a.1 := fun he => by
          have := congrArg Var.idx he; cases this
        have c2 : secxVar ≠ Backend.numba.slot a.1 := fun he => by
          have := congrArg Var.idx he; cases this
        refine ⟨fun v hv => ?_, fun row hrow => ?_⟩
        · rw [g1 v fun k hk => hv k (List.mem_cons_of_mem _ hk),
            Function.update_of_ne (hv a.1 (List.mem_cons_self ..))]
        · rcases List.mem_cons.1 hrow with rfl | hrow
          · refine ⟨env, r, rfl, rfl, h1, ?_⟩
            rw [g1 _ fun k hk he => hnd.1 (by rw [slot_inj he]; exact hk), Function.update_self]
          · obtain ⟨mid, r', e1, e2, e3, e4⟩ := g2 row hrow
            exact ⟨mid, r', by rw [e1, Function.update_of_ne c1], by rw [e2, Function.update_of_ne c2], e3, e4⟩

/-- A negative number rounded. -/
theorem round_neg {z r : ℝ} (hz : 0 ≤ z) (h : ieee .double (-z) r) : Ratio 3e-16 z (-r) := by
  refine round_double hz ?_
  have h : |r - -z| ≤ 2⁻¹ ^ 52 * |-z| := h
  show |-r - z| ≤ 2⁻¹ ^ 52 * |z|
  rw [abs_neg] at h
  rw [show -r - z = -(r - -z) by ring, abs_neg]
  exact h

/-- The parts of a photolysis rate: factors near those of the formula. -/
theorem dRow_ev {env : Vals} {l m n : ℚ} {r : KVal} (hl : 0 ≤ (l : ℝ)) (hm : 0 ≤ (m : ℝ)) (hn : 0 ≤ (n : ℝ))
    (hc : 0 ≤ env cosxVar) (hs : 0 ≤ env secxVar) (h : Ev ieee env (dRowEx l m n) r) :
    ∃ m' d : ℝ, Ratio 1e-6 m m' ∧ Ratio 1e-6 (n * env secxVar) d ∧
      Ratio 1e-6 (l * env cosxVar ^ m' * Real.exp (-d)) r.toReal := by
  unfold dRowEx at h
  have hpow : ∀ v, Ev ieee env (.bin .pow (.var cosxVar) (.num m (.real .double))) v →
      ∃ x, v = .real .double x ∧ ∃ m', Ratio 3e-16 m m' ∧ Ratio 3e-16 (env cosxVar ^ m') x := by
    intro v hv
    obtain ⟨x, y, z, p, g1, g2, g3, rfl, g4⟩ := ev_bin hv (fun v hv => ⟨_, ev_var hv⟩)
      (fun v hv => (ev_lit hv).imp fun _ => And.left)
    cases ev_var g1
    obtain ⟨y', hy', hy, -⟩ := ev_lit g2
    cases hy'
    obtain rfl := Option.some.inj (show some Prec.double = some p from g3)
    exact ⟨_, rfl, y, round_double hm hy, round_double (Real.rpow_nonneg hc _) g4⟩
  have hlit : ∀ v, Ev ieee env (.bin .mul (.num l (.real .double)) (.bin .pow (.var cosxVar) (.num m (.real .double)))) v →
      ∃ x, v = .real .double x ∧ ∃ m', Ratio 3e-16 m m' ∧ Ratio 2e-7 (l * env cosxVar ^ m') x := by
    intro v hv
    obtain ⟨x, y, z, p, g1, g2, g3, rfl, g4⟩ := ev_bin hv (fun v hv => (ev_lit hv).imp fun _ => And.left)
      (fun v hv => (hpow v hv).imp fun _ => And.left)
    obtain ⟨x', hx', hx, -⟩ := ev_lit g1
    cases hx'
    obtain ⟨y', hy', m', k1, k2⟩ := hpow _ g2
    cases hy'
    obtain rfl := Option.some.inj (show some Prec.double = some p from g3)
    have hmul := (round_double hl hx).mul k2
    exact ⟨_, rfl, m', k1, (hmul.trans (round_double hmul.nonneg g4)).mono (by norm_num)⟩
  have hminus : ∀ v, Ev ieee env (.neg (.num 1 (.real .double))) v → v = .real .double (-1) := by
    intro v hv
    cases hv with
    | negInt g1 _ => obtain ⟨x, hx, -⟩ := ev_lit g1; cases hx
    | negReal g1 =>
      obtain ⟨x, hx, -, hx1⟩ := ev_lit g1
      cases hx
      rw [hx1 (isExact_exact (by decide +kernel))]
      simp
  have hone : ∀ v, Ev ieee env (.bin .mul (.neg (.num 1 (.real .double))) (.num n (.real .double))) v →
      ∃ x, v = .real .double (-x) ∧ Ratio 1e-7 n x := by
    intro v hv
    obtain ⟨x, y, z, p, g1, g2, g3, rfl, g4⟩ := ev_bin hv (fun v hv => ⟨_, hminus v hv⟩)
      (fun v hv => (ev_lit hv).imp fun _ => And.left)
    cases hminus _ g1
    obtain ⟨y', hy', hy, -⟩ := ev_lit g2
    cases hy'
    obtain rfl := Option.some.inj (show some Prec.double = some p from g3)
    have hy := round_double hn hy
    have e : Op.mul.val (-1) y = -y := by simp [Op.val]
    rw [e] at g4
    exact ⟨-z, by rw [neg_neg], (hy.trans (round_neg hy.nonneg g4)).mono (by norm_num)⟩
  have hexp : ∀ v, Ev ieee env (.call .exp (.bin .mul (.bin .mul (.neg (.num 1 (.real .double)))
      (.num n (.real .double))) (.var secxVar))) v → ∃ x, v = .real .double x ∧ ∃ d, Ratio 1e-6 (n * env secxVar) d ∧
        Ratio 3e-16 (Real.exp (-d)) x := by
    intro v hv
    have hd : ∀ v, Ev ieee env (.bin .mul (.bin .mul (.neg (.num 1 (.real .double))) (.num n (.real .double)))
        (.var secxVar)) v → ∃ x, v = .real .double (-x) ∧ Ratio 1e-6 (n * env secxVar) x := by
      intro v hv
      obtain ⟨x, y, z, p, g1, g2, g3, rfl, g4⟩ := ev_bin hv (fun v hv => by
        obtain ⟨x, hx, -⟩ := hone v hv; exact ⟨_, hx⟩) (fun v hv => ⟨_, ev_var hv⟩)
      obtain ⟨x', hx', hx⟩ := hone _ g1
      cases hx'
      cases ev_var g2
      obtain rfl := Option.some.inj (show some Prec.double = some p from g3)
      have hmul := hx.mul (Ratio.refl hs)
      have e : Op.mul.val (-x') (env secxVar) = -(x' * env secxVar) := by simp [Op.val]
      rw [e] at g4
      exact ⟨-z, by rw [neg_neg], (hmul.trans (round_neg hmul.nonneg g4)).mono (by norm_num)⟩
    cases hv with
    | call _ h1 _ h3 =>
      obtain ⟨d, hd', hd⟩ := hd _ h1
      cases hd'
      exact ⟨_, rfl, d, hd, round_double (Real.exp_pos _).le h3⟩
  obtain ⟨x, y, z, p, g1, g2, g3, rfl, g4⟩ := ev_bin h (fun v hv => (hlit v hv).imp fun _ => And.left)
    (fun v hv => (hexp v hv).imp fun _ => And.left)
  obtain ⟨x', hx', m', k1, k2⟩ := hlit _ g1
  cases hx'
  obtain ⟨y', hy', d, k3, k4⟩ := hexp _ g2
  cases hy'
  obtain rfl := Option.some.inj (show some Prec.double = some p from g3)
  have hmul := k2.mul k4
  exact ⟨m', d, k1.mono (by norm_num), k3, (hmul.trans (round_double hmul.nonneg g4)).mono (by norm_num)⟩

theorem exp_25 : Real.exp (-25) ≤ 2e-11 := by
  have : Real.exp (-25) = (Real.exp 1 ^ 25)⁻¹ := by
    rw [← Real.exp_nat_mul, ← Real.exp_neg]; norm_num
  rw [this, inv_le_comm₀ (by positivity) (by norm_num)]
  refine le_trans ?_ (pow_le_pow_left₀ (by norm_num) Real.exp_one_gt_d9.le 25)
  norm_num

/-- The formula when the sun is low. -/
theorem formula_lower {l m n c : ℝ} (hl : 0 ≤ l) (hm : 0 ≤ m) (hn : 0.08 ≤ n) (hc : 0 < c) (hc' : c ≤ 0.0031) :
    l * c ^ m * Real.exp (-n / c) ≤ 1e-10 * l := by
  have h1 : c ^ m ≤ 1 := Real.rpow_le_one hc.le (by linarith) hm
  have h2 : Real.exp (-n / c) ≤ 2e-11 := by
    refine le_trans (Real.exp_le_exp.2 ?_) exp_25
    rw [neg_div, neg_le_neg_iff, le_div_iff₀ hc]
    linarith
  calc l * c ^ m * Real.exp (-n / c) ≤ l * 1 * 2e-11 := by
        refine mul_le_mul (mul_le_mul_of_nonneg_left h1 hl) h2 (Real.exp_pos _).le (by linarith)
    _ ≤ 1e-10 * l := by linarith

/-- A photolysis rate as computed, when the computed height of the sun is low. -/
theorem dRow_low {env : Vals} {row : Nat × ℚ × ℚ × ℚ} (hr : row ∈ photolysisTable) {r : KVal} (hc : 0 < env cosxVar)
    (hc' : env cosxVar ≤ 0.0031) (hs : Ratio 1e-6 (1 / env cosxVar) (env secxVar))
    (h : Ev ieee env (dRowEx row.2.1 row.2.2.1 row.2.2.2) r) : 0 ≤ r.toReal ∧ r.toReal ≤ 1e-10 * row.2.1 := by
  obtain ⟨l1, l2, m1, m2, n1, n2⟩ := table_bounds hr
  set c := env cosxVar
  have hs0 := hs.nonneg
  have hl0 : (0 : ℝ) ≤ row.2.1 := by linarith
  obtain ⟨m', d, g1, g2, g3⟩ := dRow_ev hl0 (by linarith) (by linarith) hc.le hs0 h
  refine ⟨g3.nonneg, ?_⟩
  have hd : 25 ≤ d := by
    have e1 : 0.999 ≤ Real.exp (-1e-6) := exp_low (by norm_num)
    have e2 : 1 / c * 0.999 ≤ env secxVar :=
      (mul_le_mul_of_nonneg_left e1 (by positivity)).trans hs.2.2.1
    have e3 : (row.2.2.2 : ℝ) * env secxVar * 0.999 ≤ d :=
      (mul_le_mul_of_nonneg_left e1 (mul_nonneg (by linarith) hs0)).trans g2.2.2.1
    have e4 : 322 ≤ 1 / c := by rw [le_div_iff₀ hc]; linarith
    nlinarith
  have h1 : c ^ m' ≤ 1 := Real.rpow_le_one hc.le (by linarith) g1.nonneg
  have h2 : Real.exp (-d) ≤ 2e-11 := (Real.exp_le_exp.2 (by linarith)).trans exp_25
  have h3 : (row.2.1 : ℝ) * c ^ m' * Real.exp (-d) ≤ row.2.1 * 1 * 2e-11 :=
    mul_le_mul (mul_le_mul_of_nonneg_left h1 hl0) h2 (Real.exp_pos _).le (by linarith)
  have h4 : Real.exp 1e-6 ≤ 1.001 := exp_small (by norm_num)
  calc r.toReal ≤ row.2.1 * c ^ m' * Real.exp (-d) * Real.exp 1e-6 := g3.2.2.2
    _ ≤ row.2.1 * 1 * 2e-11 * 1.001 := mul_le_mul h3 h4 (Real.exp_pos _).le (by positivity)
    _ ≤ 1e-10 * row.2.1 := by linarith

/-- Without sun the rate is zero. -/
theorem dRow_dark {env : Vals} {row : Nat × ℚ × ℚ × ℚ} (hr : row ∈ photolysisTable) {r : KVal} (hc : env cosxVar = 0)
    (hs : 0 ≤ env secxVar) (h : Ev ieee env (dRowEx row.2.1 row.2.2.1 row.2.2.2) r) : r.toReal = 0 := by
  obtain ⟨l1, l2, m1, m2, n1, n2⟩ := table_bounds hr
  obtain ⟨m', d, g1, g2, g3⟩ := dRow_ev (by linarith) (by linarith) (by linarith) hc.ge hs h
  have hm : 0 < m' := g1.pos (by linarith)
  rw [hc, Real.zero_rpow hm.ne', mul_zero, zero_mul] at g3
  exact g3.zero

/-- What the analysis finds for a height between two bounds. -/
theorem dRow_band {a b e x : ℚ} (hb : dBandOk a b e x = true) {env : Vals} {row : Nat × ℚ × ℚ × ℚ}
    (hr : row ∈ photolysisTable) {r : KVal} {c : ℝ} (ha : (a : ℝ) ≤ c) (hcb : c ≤ b) (hc0 : 0 < c)
    (hc : |env cosxVar - c| ≤ 6e-11) {start : Vals} (hst : start cosxVar = env cosxVar) {rs : KVal}
    (hs : Ev ieee start dSecxEx rs) (hs' : env secxVar = rs.toReal)
    (h : Ev ieee env (dRowEx row.2.1 row.2.2.1 row.2.2.2) r) :
    Ratio e (row.2.1 * c ^ (row.2.2.1 : ℝ) * Real.exp (-row.2.2.2 / c)) r.toReal ∧
    |r.toReal - row.2.1 * c ^ (row.2.2.1 : ℝ) * Real.exp (-row.2.2.2 / c)| ≤ x * row.2.1 := by
  have hcos : (dHeightErr a b).holds c (env cosxVar) := by
    refine tidy_holds ⟨trivial, trivial, ha, hcb, hc.trans (le_of_eq ?_)⟩
    norm_num
  have hsec : (errOf [(cosxVar, dHeightErr a b)] dSecxEx).holds (1 / c) (env secxVar) := by
    have hS : ErrSt.Sound [(cosxVar, dHeightErr a b)] (fun _ => c) start := by
      intro v
      rw [ErrSt.get]
      split
      · rename_i hv
        rw [← hv]
        dsimp only
        rw [hst]
        exact hcos
      · exact Err.top_holds _ _
    have := errOf_holds hS hs
    rw [hs']
    have hval : dSecxEx.erase.val (fun _ => c) = 1 / c := by
      unfold dSecxEx
      simp only [KEx.erase, Ex.val]
      push_cast
      rfl
    rw [hval] at this
    exact this
  have hE : (dBandState a b).Sound (fun v => if v = secxVar then 1 / c else c) env := by
    intro v
    unfold dBandState
    rw [ErrSt.get]
    split
    · rename_i hv
      rw [← hv]
      dsimp only
      rw [if_pos rfl]
      exact hsec
    · rename_i hv1
      rw [ErrSt.get]
      split
      · rename_i hv
        dsimp only at hv1 hv ⊢
        rw [if_neg (fun hh : v = secxVar => hv1 hh.symm), ← hv]
        exact hcos
      · exact Err.top_holds _ _
  have hv := errOf_holds hE h
  have hval : (dRowEx row.2.1 row.2.2.1 row.2.2.2).erase.val (fun v => if v = secxVar then 1 / c else c) =
      row.2.1 * c ^ (row.2.2.1 : ℝ) * Real.exp (-row.2.2.2 / c) := by
    have hne : cosxVar ≠ secxVar := by decide
    unfold dRowEx
    simp only [KEx.erase, Ex.val, Fn.val, if_true, if_neg hne]
    congr 2
    push_cast
    field_simp
  rw [hval] at hv
  unfold dBandOk at hb
  have := List.all_eq_true.1 hb row hr
  rw [forceErr_eq] at this
  split at this
  · rename_i d p h1 h2
    obtain ⟨k1, k2⟩ := of_decide_eq_true this
    have e1 := hv.ratio
    have e2 := hv.range
    rw [h1] at e1
    rw [h2] at e2
    refine ⟨Ratio.mono e1 (by exact_mod_cast k1), e2.2.2.trans ?_⟩
    have : ((p.2.2 : ℚ) : ℝ) ≤ ((x * row.2.1 : ℚ) : ℝ) := by exact_mod_cast k2
    push_cast at this
    exact this
  · cases this

theorem dRow_all {env : Vals} {row : Nat × ℚ × ℚ × ℚ} (hr : row ∈ photolysisTable) {r : KVal} {c : ℝ} (ha : 0.003 ≤ c)
    (hb : c ≤ 1) (hc : |env cosxVar - c| ≤ 6e-11) {start : Vals} (hst : start cosxVar = env cosxVar) {rs : KVal}
    (hs : Ev ieee start dSecxEx rs) (hs' : env secxVar = rs.toReal)
    (h : Ev ieee env (dRowEx row.2.1 row.2.2.1 row.2.2.2) r) :
    |r.toReal - row.2.1 * c ^ (row.2.2.1 : ℝ) * Real.exp (-row.2.2.2 / c)| ≤ (9e-9 : ℚ) * row.2.1 := by
  have hc0 : 0 < c := by linarith
  rcases le_total c 0.02 with h1 | h1
  · exact (dRow_band facts_double_low hr (by push_cast; linarith) (by push_cast; linarith) hc0 hc hst hs hs' h).2
  rcases le_total c 0.1 with h2 | h2
  · exact (dRow_band facts_double_middle hr (by push_cast; linarith) (by push_cast; linarith) hc0 hc hst hs hs' h).2
  · exact (dRow_band facts_double_high hr (by push_cast; linarith) (by push_cast; linarith) hc0 hc hst hs hs' h).2

/-- **C91** (photolysis): the photolysis rates as the Python version computes them, in double precision, at any time up
to thirty years: never negative; nothing at night; off by no more than `9e-9` of the scale `l` of the rate; and within a
factor `exp (±5e-9)` when the sun is at least 6 degrees high. -/
theorem C91_photolysis {T t r h2o : ℝ} {junk env : Vals} (h1 : 200 ≤ T) (h2 : T ≤ 330) (hr0 : 0 ≤ r) (hh : 0 ≤ h2o)
    (ht : 0 ≤ t) (ht' : t ≤ 1000000000) {ks : List KStmt} (hks : InDouble (rateProgram .numba) ks)
    (h : EvRun ieee (ambient .numba T t r h2o junk) ks env)
    {k : Nat} {l m n : ℚ} (hr : (k, l, m, n) ∈ photolysisTable) :
    0 ≤ env (Backend.numba.slot k) ∧
    (sunHeight t ≤ -6e-11 → env (Backend.numba.slot k) = 0) ∧
    |env (Backend.numba.slot k) - photolysisRate t l m n| ≤ 9e-9 * l ∧
    (0.1 ≤ sunHeight t → WithinFactor 5e-9 (photolysisRate t l m n) (env (Backend.numba.slot k))) := by
  obtain rfl : ks = dRateProgram := Option.some.inj ((inDouble_unique hks).symm.trans (inDouble_unique dRate_double))
  obtain ⟨l1, l2, m1, m2, n1, n2⟩ := table_bounds hr
  dsimp only at l1 l2 m1 m2 n1 n2
  have hl0 : (0 : ℝ) ≤ l := by linarith
  rw [dHour_split, dSun_split] at h
  have hassoc : dBefore ++ dHourStmt :: (dToSun ++ dUpStmt :: (photolysisTable.map dRowStmt ++ dAfter.drop 42)) =
      (dBefore ++ (dHourStmt :: dToSun)) ++ (dUpStmt :: (photolysisTable.map dRowStmt ++ dAfter.drop 42)) := by
    simp
  rw [hassoc] at h
  obtain ⟨e1, hsun, h⟩ := evRun_append.1 h
  obtain ⟨hnear, hlim, hlim'⟩ := dHeight_near h1 h2 hr0 hh ht ht' hsun
  obtain ⟨hn1, hn2⟩ := abs_le.1 hnear
  cases h with
  | @cons _ e2 _ _ _ hup h =>
  obtain ⟨e3, hrows, hrest⟩ := evRun_append.1 h
  have hkeep : env (Backend.numba.slot k) = e3 (Backend.numba.slot k) :=
    asg_other (p := fun v => decide (v.name ≠ Backend.numba.name "J".toList)) (by
      simp only [ne_eq, decide_not, Bool.not_eq_false', decide_eq_true_eq]; rfl) double_facts.2.1.2.2 hrest
  obtain ⟨-, hall⟩ := dRows_run (by decide +kernel) hrows
  obtain ⟨mid, val, c1, c2, hev, hout⟩ := hall _ hr
  dsimp only at hev hout
  rw [hkeep, hout]
  have hle1 := sunHeight_le_one t
  set c := sunHeight t with hcdef
  -- the exact rate when the sun is low
  have hexact : c ≤ 0.0031 → 0 ≤ photolysisRate t l m n ∧ photolysisRate t l m n ≤ 1e-10 * l := by
    intro hc
    unfold photolysisRate
    rw [← hcdef]
    split
    · exact ⟨le_rfl, by linarith⟩
    · rename_i hpos
      have hc0 : 0 < c := lt_trans (by norm_num) (not_le.1 hpos)
      exact ⟨by positivity, formula_lower hl0 (by linarith) n1 hc0 hc⟩
  cases hup with
  | yes g1 g2 g3 g4 =>
    obtain rfl := ev_var g1
    obtain rfl := ev_var g2
    have g3 : e1 cosxVar ≤ e1 limitVar := g3
    cases g4 with
    | cons g4 g5 =>
    cases g5 with
    | cons g5 g6 =>
    cases g6
    obtain ⟨x0, rfl, -, hx0⟩ := ev_lit g4
    obtain ⟨x1, rfl, hx1, -⟩ := ev_lit g5
    have hne : cosxVar ≠ secxVar := by decide
    have hc0 : mid cosxVar = 0 := by
      rw [c1, Function.update_of_ne hne, Function.update_self]
      show x0 = 0
      rw [hx0 (isExact_exact (by decide +kernel))]
      simp
    have hs0 : 0 ≤ mid secxVar := by
      rw [c2, Function.update_self]
      exact (round_double (by norm_num) hx1).nonneg
    have hz := dRow_dark hr hc0 hs0 hev
    have hlow : c ≤ 0.0031 := by linarith
    obtain ⟨p1, p2⟩ := hexact hlow
    rw [hz]
    refine ⟨le_rfl, fun _ => rfl, ?_, fun hc => by linarith⟩
    rw [zero_sub, abs_neg, abs_of_nonneg p1]
    linarith
  | no g1 g2 g3 g4 =>
    obtain rfl := ev_var g1
    obtain rfl := ev_var g2
    have g3 : e1 limitVar < e1 cosxVar := not_le.1 g3
    cases g4 with
    | cons g4 g6 =>
    cases g6
    have hne : cosxVar ≠ secxVar := by decide
    have hcos : mid cosxVar = e1 cosxVar := by rw [c1, Function.update_of_ne hne]
    have hcpos : 0 < mid cosxVar := by rw [hcos]; linarith
    have hdark : ¬ c ≤ -6e-11 := by linarith
    have hsec0 : Ratio 1e-6 (1 / mid cosxVar) (mid secxVar) := by
      rw [c2, Function.update_self, hcos]
      obtain ⟨x, y, z, p, q1, q2, q3, rfl, q4⟩ := ev_bin g4 (fun v hv => (ev_lit hv).imp fun _ => And.left)
        (fun v hv => ⟨_, ev_var hv⟩)
      obtain ⟨x', hx', -, hx⟩ := ev_lit q1
      cases hx'
      cases ev_var q2
      obtain rfl := Option.some.inj (show some Prec.double = some p from q3)
      rw [hx (isExact_exact (by decide +kernel))] at q4
      have e : Op.div.val ((1 : ℚ) : ℝ) (e1 cosxVar) = 1 / e1 cosxVar := by simp [Op.val]
      rw [e] at q4
      exact (round_double (by rw [hcos] at hcpos; positivity) q4).mono (by norm_num)
    have hgen := dRow_ev hl0 (by linarith) (by linarith) hcpos.le hsec0.nonneg hev
    have hnn : 0 ≤ val.toReal := by obtain ⟨_, _, -, -, g⟩ := hgen; exact g.nonneg
    refine ⟨hnn, fun hd => absurd hd hdark, ?_, ?_⟩
    · rcases le_total c 0.003 with hc | hc
      · obtain ⟨p1, p2⟩ := hexact (by linarith)
        obtain ⟨p3, p4⟩ := dRow_low hr hcpos (by rw [hcos]; linarith) hsec0 hev
        dsimp only at p4
        rw [abs_le]
        constructor <;> linarith
      · have := (dRow_all hr hc hle1 (by rw [hcos]; exact hnear) hcos.symm g4 (by rw [c2, Function.update_self]) hev)
        have hx : ((9e-9 : ℚ) : ℝ) = 9e-9 := by norm_num
        rw [hx] at this
        unfold photolysisRate
        rw [← hcdef, if_neg (by linarith)]
        exact this
    · intro hc
      have := (dRow_band facts_double_high hr (c := c) (by push_cast; linarith) (by push_cast; linarith) (by linarith)
        (by rw [hcos]; exact hnear) hcos.symm g4 (by rw [c2, Function.update_self]) hev).1
      have hx : ((5e-9 : ℚ) : ℝ) = 5e-9 := by norm_num
      rw [hx] at this
      unfold photolysisRate
      rw [← hcdef, if_neg (by linarith)]
      exact ratio_within this

/-- The program runs in double precision. -/
theorem double_runs {T t r h2o : ℝ} (junk : Vals) (hT : 0 < T) (hh : 0 ≤ h2o) :
    EvRun exactly (ambient .numba T t r h2o junk) dRateProgram
      (run (ambient .numba T t r h2o junk) (rateProgram .numba)) := by
  obtain ⟨-, -, -, -, hk, hf⟩ := double_facts
  have := exact_run_exists (env := ambient .numba T t r h2o junk) (List.all_eq_true.1 hk)
    (by rw [dRate_double.1]; exact (C50_defined_positive .numba (by decide) T t r h2o junk hT hh).1)
    (noFloor_fitsRun _ _ hf)
  rw [dRate_double.1] at this
  exact this

/-- At noon the rate of the first row is within a factor `exp (±5e-9)` and not zero. -/
example (junk : Vals) : ∃ k, InDouble (rateProgram .numba) k ∧
    (∃ env, EvRun ieee (ambient .numba 298.15 solarNoon 0 0 junk) k env) ∧
    ∀ env, EvRun ieee (ambient .numba 298.15 solarNoon 0 0 junk) k env →
      0 < photolysisRate solarNoon 6.073e-5 1.743 0.474 ∧
      WithinFactor 5e-9 (photolysisRate solarNoon 6.073e-5 1.743 0.474) (env (Backend.numba.slot 1)) ∧
      WithinFactor 9e-13 (run (ambient .numba 298.15 solarNoon 0 0 junk) (rateProgram .numba) (Backend.numba.var "KMT01"))
        (env (Backend.numba.var "KMT01")) := by
  obtain ⟨hn, hn'⟩ := noon_bounds
  refine ⟨_, dRate_double, ⟨_, (double_runs junk (by norm_num) le_rfl).mono fun p x y => exactly_ieee⟩, fun env h => ?_⟩
  have hmem : ((1 : Nat), (6.073e-5 : ℚ), (1.743 : ℚ), (0.474 : ℚ)) ∈ photolysisTable := by decide +kernel
  have h1 := (C91_photolysis (by norm_num) (by norm_num) le_rfl le_rfl hn (by linarith) dRate_double h hmem).2.2.2 noon_high
  have h2 := (C47_photolysis .numba (by decide) 298.15 solarNoon 0 0 junk 1 _ _ _ hmem).2.2.2
    (lt_of_lt_of_le (by norm_num) noon_high)
  push_cast at h1 h2
  exact ⟨h2, h1, C91_coefficients (by norm_num) (by norm_num) le_rfl le_rfl hn (by linarith) dRate_double h (by decide)⟩

end PyBox
