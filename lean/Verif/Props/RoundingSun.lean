import Verif.Rate.FactsSun
import Verif.Props.Rounding

/-!
# C85: photolysis rates in single and double precision
-/

namespace PyBox

open Rl Spec

attribute [local irreducible] kRateProgram rateProgram knownErrors beforeHour afterHour toSun steadyPart

/-! ### The parts of the program -/

theorem sun_facts :
    ((afterHour.drop 5).take 1 = [upStmt] ∧ (afterHour.drop 6).take 36 = photolysisTable.map rowStmt) ∧
    steadyPart.all (KStmt.isAsg fun v => decide (v.name ≠ Backend.fortran.name "J".toList)) = true ∧
    checkRun dayErrors beforeHour startSun = some dayState ∧
    checkRun heightErrors toSun hourState = some heightState ∧
    (symRun [] (beforeHour.map KStmt.erase)).get wholeVar = .var wholeVar ∧
    norm ((symRun [] (beforeHour.map KStmt.erase ++ .asg hourVar hourEx :: toSun.map KStmt.erase)).get cosxVar) =
      norm heightEx := by
  have h := facts_sun
  unfold sunFacts at h
  simp only [Bool.and_eq_true] at h
  obtain ⟨⟨⟨⟨⟨⟨h1, h2⟩, h3⟩, h4⟩, h5⟩, h6⟩, h7⟩ := h
  exact ⟨⟨of_decide_eq_true h1, of_decide_eq_true h2⟩, h3, of_decide_eq_true h4, of_decide_eq_true h5,
    of_decide_eq_true h6, of_decide_eq_true h7⟩

theorem hour_split : kRateProgram = beforeHour ++ (hourStmt :: afterHour) := by
  have h := facts_kinds
  unfold kindFacts at h
  rw [Bool.and_eq_true, Bool.and_eq_true, Bool.and_eq_true, decide_eq_true_eq, decide_eq_true_eq] at h
  obtain ⟨⟨⟨-, h2⟩, -⟩, -⟩ := h
  have hd : kRateProgram.dropWhile KStmt.noFloor = hourStmt :: afterHour := by
    unfold afterHour
    rcases hc : kRateProgram.dropWhile KStmt.noFloor with - | ⟨a, l⟩
    · rw [hc] at h2; cases h2
    · rw [hc] at h2
      rw [Option.some.inj h2]
      rfl
  rw [← hd]
  unfold beforeHour
  exact (List.takeWhile_append_dropWhile).symm

theorem day_value (env : Vals) : run env (beforeHour.map KStmt.erase) dayVar =
    149 + env (Backend.fortran.var "ttime") / 86400 := by
  have h := facts_kinds
  unfold kindFacts at h
  rw [Bool.and_eq_true, Bool.and_eq_true, Bool.and_eq_true, decide_eq_true_eq, decide_eq_true_eq] at h
  rw [run_eq_sym, h.2]
  simp only [Ex.val]
  push_cast
  ring

theorem sun_split : afterHour = toSun ++ (upStmt :: (photolysisTable.map rowStmt ++ steadyPart)) := by
  obtain ⟨⟨h1, h2⟩, -⟩ := sun_facts
  have e1 : afterHour = toSun ++ afterHour.drop 5 := by
    unfold toSun; exact (List.take_append_drop 5 afterHour).symm
  have e2 : afterHour.drop 5 = upStmt :: afterHour.drop 6 := by
    have := (List.take_append_drop 1 (afterHour.drop 5)).symm
    rw [h1, List.drop_drop] at this
    exact this
  have e3 : afterHour.drop 6 = photolysisTable.map rowStmt ++ steadyPart := by
    have := (List.take_append_drop 36 (afterHour.drop 6)).symm
    rw [h2, List.drop_drop] at this
    unfold steadyPart
    exact this
  rw [← e3, ← e2, ← e1]

/-! ### The height of the sun -/

theorem height_val (env : Vals) {t : ℝ} (ht : env (nm "ttime") = t) {k : ℤ} (hk : env wholeVar = k) :
    heightEx.val env = sunHeight t := by
  unfold heightEx sunHeight latitude
  have hpi := four_arctan_one
  simp only [Ex.val, ht, hk]
  have e1 : (((150 : ℚ) : ℝ) - ((1 : ℚ) : ℝ) + t / ((86400 : ℚ) : ℝ)) = 149 + t / 86400 := by
    push_cast; norm_num
  have e3 : (Fn.cos.val = Real.cos) := rfl
  have e4 : (Fn.sin.val = Real.sin) := rfl
  have e5 : (Fn.arctan.val = Real.arctan) := rfl
  have m1 : ¬ ((2 : ℚ) = 1) := by norm_num
  have m2 : ¬ ((3 : ℚ) = 1) := by norm_num
  rw [e1, ← cos_hourAngle t k]
  simp only [if_neg m1, if_neg m2, if_true, Ex.val, e3, e4, e5]
  push_cast
  rw [hpi]
  have hθ : 2 * Real.pi * (150 - 1) / 365 = 2 * Real.pi * 149 / 365 := by norm_num
  rw [hθ]
  unfold declination equationOfTime
  simp only
  congr 2
  · congr 1
    ring
  · congr 2
    ring
  · congr 1
    ring

theorem sunHeight_le_one (t : ℝ) : sunHeight t ≤ 1 := by
  unfold sunHeight
  set a := latitude
  set b := declination
  have h1 := Real.sin_sq_add_cos_sq a
  have h2 := Real.sin_sq_add_cos_sq b
  have h3 : Real.cos (hourAngle t) * (Real.cos a * Real.cos b) ≤ |Real.cos a * Real.cos b| := by
    refine (le_abs_self _).trans ?_
    rw [abs_mul]
    exact mul_le_of_le_one_left (abs_nonneg _) (Real.abs_cos_le_one _)
  rcases abs_cases (Real.cos a * Real.cos b) with ⟨h4, -⟩ | ⟨h4, -⟩ <;> rw [h4] at h3 <;>
    nlinarith [sq_nonneg (Real.cos a - Real.cos b), sq_nonneg (Real.cos a + Real.cos b),
      sq_nonneg (Real.sin a - Real.sin b), sq_nonneg (Real.sin a + Real.sin b)]

theorem ev_var {R : Rounding} {env : Vals} {v : Var} {r : KVal} (h : Ev R env (.var v) r) :
    r = .real .double (env v) := by
  cases h; rfl

theorem ev_lit {R : Rounding} {env : Vals} {q : ℚ} {p : Prec} {r : KVal} (h : Ev R env (.num q (.real p)) r) :
    ∃ x, r = .real p x ∧ R p q x ∧ (Exact p q → x = q) := by
  cases h with
  | lit h1 h2 => exact ⟨_, rfl, h1, h2⟩

/-- An operation of two floating-point numbers. -/
theorem ev_bin {R : Rounding} {env : Vals} {o : Op} {a b : KEx} {r : KVal} (h : Ev R env (.bin o a b) r) {pa pb : Prec}
    (ha : ∀ v, Ev R env a v → ∃ x, v = .real pa x) (hb : ∀ v, Ev R env b v → ∃ x, v = .real pb x) :
    ∃ x y z p, Ev R env a (.real pa x) ∧ Ev R env b (.real pb y) ∧
      common (.real pa x) (.real pb y) = some p ∧ r = .real p z ∧ R p (o.val x y) z := by
  cases h with
  | binInt h1 _ => obtain ⟨x, hx⟩ := ha _ h1; cases hx
  | @binReal _ _ _ _ _ _ x' y' _ h1 h2 h3 h4 h5 h6 h7 =>
    obtain ⟨x, rfl⟩ := ha _ h1
    obtain ⟨y, rfl⟩ := hb _ h2
    refine ⟨x, y, _, _, h1, h2, h3, rfl, ?_⟩
    have e1 : x' = x := h4
    have e2 : y' = y := by
      cases o <;> exact h5
    rw [e1, e2] at h7
    exact h7

/-- The hour: the fraction of the day, cut off at the day the computed time falls in. -/
theorem hour_ev {env : Vals} {r : KVal} (h : Ev ieee env (.bin .mul (.bin .sub (.var dayVar)
      (.call .floor (.var dayVar))) (.num 24 (.real .single))) r) (h1 : 0 ≤ env dayVar) (h2 : env dayVar ≤ 20000) :
    |r.toReal - 24 * (env dayVar - ⌊env dayVar⌋)| ≤ 1e-13 := by
  have hf0 := Int.fract_nonneg (env dayVar)
  have hf1 := Int.fract_lt_one (env dayVar)
  have hfr : env dayVar - ⌊env dayVar⌋ = Int.fract (env dayVar) := rfl
  have hsub : ∀ v, Ev ieee env (.bin .sub (.var dayVar) (.call .floor (.var dayVar))) v →
      ∃ z, v = .real .double z ∧ |z - (env dayVar - ⌊env dayVar⌋)| ≤ 2⁻¹ ^ 52 := by
    intro v hv
    cases hv with
    | binInt g1 _ => have := ev_var g1; cases this
    | @binReal _ _ _ _ _ _ x' y' _ g1 g2 g3 g4 g5 g6 g7 =>
      obtain rfl := ev_var g1
      cases g2 with
      | call hh => cases hh
      | floor g2 gfit =>
        have gg := ev_var g2
        cases gg
        have : some Prec.double = some _ := g3
        obtain rfl := Option.some.inj this
        have e1 : x' = env dayVar := g4
        have e2 : y' = ((⌊env dayVar⌋ : ℤ) : ℝ) := by
          refine g5.2 ?_
          have z0 : (0 : ℤ) ≤ ⌊env dayVar⌋ := Int.floor_nonneg.2 h1
          have z1 : ⌊env dayVar⌋ ≤ (20000 : ℤ) := by
            have : ((⌊env dayVar⌋ : ℤ) : ℝ) ≤ ((20000 : ℤ) : ℝ) := by
              push_cast
              exact (Int.floor_le _).trans h2
            exact_mod_cast this
          rw [abs_of_nonneg z0]
          exact z1.trans (by decide)
        rw [e1, e2] at g7
        refine ⟨_, rfl, ?_⟩
        have g7 : |_ - (env dayVar - ⌊env dayVar⌋)| ≤ 2⁻¹ ^ 52 * |env dayVar - ⌊env dayVar⌋| := g7
        refine g7.trans ?_
        rw [hfr, abs_of_nonneg hf0]
        nlinarith [show (0 : ℝ) ≤ 2⁻¹ ^ 52 by positivity]
  obtain ⟨x, y, z, p, g1, g2, g3, rfl, g4⟩ := ev_bin (pb := .single) h (fun v hv => (hsub v hv).imp fun _ => And.left)
    (fun v hv => (ev_lit hv).imp fun _ => And.left)
  obtain ⟨x', hx', hx⟩ := hsub _ g1
  cases hx'
  obtain ⟨y', hy', -, hy⟩ := ev_lit g2
  cases hy'
  obtain rfl := Option.some.inj (show some Prec.double = some p from g3)
  have hy24 := hy (isExact_exact (by decide +kernel))
  rw [hy24] at g4
  have g4 : |z - x * ((24 : ℚ) : ℝ)| ≤ 2⁻¹ ^ 52 * |x * ((24 : ℚ) : ℝ)| := g4
  push_cast at g4
  rw [hfr] at hx ⊢
  show |z - 24 * Int.fract (env dayVar)| ≤ 1e-13
  have hu : (2⁻¹ : ℝ) ^ 52 ≤ 3e-16 := by norm_num
  have hxx : |x| ≤ 2 := by
    obtain ⟨a1, a2⟩ := abs_le.1 (hx.trans hu)
    rw [abs_le]; constructor <;> linarith
  have h3 : |x * 24| ≤ 48 := by rw [abs_mul, abs_of_pos (show (0 : ℝ) < 24 by norm_num)]; linarith
  have h4 : |z - x * 24| ≤ 3e-16 * 48 := g4.trans (mul_le_mul hu h3 (abs_nonneg _) (by norm_num))
  obtain ⟨b1, b2⟩ := abs_le.1 h4
  obtain ⟨a1, a2⟩ := abs_le.1 (hx.trans hu)
  rw [abs_le]; constructor <;> linarith

theorem sound_start {T t r h2o : ℝ} {junk : Vals} (ht : 0 ≤ t) (ht' : t ≤ 1000000000) (k : ℤ) :
    startSun.Sound (Function.update (ambient .fortran T t r h2o junk) wholeVar k)
      (ambient .fortran T t r h2o junk) := by
  intro v
  unfold startSun
  rw [ErrSt.get]
  split
  · rename_i hv
    have e : (⟨chars% "ttime", none⟩ : Var) = Backend.fortran.var "ttime" := by decide
    have hne : Backend.fortran.var "ttime" ≠ wholeVar := by decide
    rw [← hv]
    dsimp only
    rw [e, Function.update_of_ne hne, ambient_ttime]
    refine ⟨trivial, trivial, ?_, ?_, ?_⟩
    · show ((0 : ℚ) : ℝ) ≤ t
      push_cast; exact ht
    · show t ≤ ((1000000000 : ℚ) : ℝ)
      push_cast; exact ht'
    · simp
  · exact Err.top_holds _ _

/-- The computed height of the sun is within `1.3e-6` of the true one. -/
theorem height_near {T t r h2o : ℝ} {junk env : Vals} (ht : 0 ≤ t) (ht' : t ≤ 1000000000)
    (h : EvRun ieee (ambient .fortran T t r h2o junk) (beforeHour ++ (hourStmt :: toSun)) env) :
    |env cosxVar - sunHeight t| ≤ 13e-7 ∧ 0 < env limitVar ∧ env limitVar ≤ 1e-29 := by
  obtain ⟨-, -, h4, h5, h6, h7⟩ := sun_facts
  obtain ⟨mid, hb, hr⟩ := evRun_append.1 h
  cases hr with
  | cons hh hs =>
  cases hh with
  | @asg _ _ val hh =>
  have hgen : ∀ k : ℤ, dayState.Sound
      (run (Function.update (ambient .fortran T t r h2o junk) wholeVar k) (beforeHour.map KStmt.erase)) mid :=
    fun k => checkRun_sound h4 (sound_start ht ht' k) hb
  have hday : ∀ k : ℤ, run (Function.update (ambient .fortran T t r h2o junk) wholeVar k)
      (beforeHour.map KStmt.erase) dayVar = 149 + t / 86400 := by
    intro k
    rw [day_value, Function.update_of_ne (by decide), ambient_ttime]
  have hday' : ∀ k : ℤ, |mid dayVar - (149 + t / 86400)| ≤ 2e-11 := by
    intro k
    have := (hgen k dayVar).range
    have hg : (dayState.get dayVar).range = some (149, 12000, 2e-11) := by decide +kernel
    rw [hg] at this
    have := this.2.2
    rw [hday] at this
    refine this.trans (le_of_eq ?_)
    norm_num
  have hd0 := hday' 0
  obtain ⟨a1, a2⟩ := abs_le.1 hd0
  have hq : t / 86400 ≤ 12000 := by
    rw [div_le_iff₀ (by norm_num)]; linarith
  have hq0 : 0 ≤ t / 86400 := by positivity
  have hm0 : 0 ≤ mid dayVar := by linarith
  have hm1 : mid dayVar ≤ 20000 := by linarith
  have hhour := hour_ev hh hm0 hm1
  set k : ℤ := ⌊mid dayVar⌋ with hk
  set E := Function.update (ambient .fortran T t r h2o junk) wholeVar (k : ℝ) with hE
  set R := run E (beforeHour.map KStmt.erase) with hR
  have hRk : R wholeVar = k := by
    rw [hR, run_eq_sym, h6]
    show E wholeVar = k
    rw [hE, Function.update_self]
  have hRd : R dayVar = 149 + t / 86400 := hday k
  have hval : hourEx.val R = 24 * (149 + t / 86400 - k) := by
    unfold hourEx
    simp only [Ex.val]
    rw [hRd, hRk]
    push_cast
    ring
  have hk0 := Int.floor_le (mid dayVar)
  have hk1 := Int.lt_floor_add_one (mid dayVar)
  have hhv : (Backend.fortran.var "currentFracHour") = hourVar := by decide
  have hsound : hourState.Sound (Function.update R hourVar (hourEx.val R))
      (Function.update mid (Backend.fortran.var "currentFracHour") val.toReal) := by
    rw [hhv]
    refine sound_update (hgen k) hourVar (i := ⟨none, none, some (-1, 25, 1e-9)⟩) ⟨trivial, trivial, ?_, ?_, ?_⟩
    · rw [hval]; push_cast; linarith
    · rw [hval]; push_cast; linarith
    · rw [hval]
      push_cast
      obtain ⟨b1, b2⟩ := abs_le.1 hhour
      rw [abs_le]
      constructor <;> linarith
  have hfin := checkRun_sound h5 hsound hs
  have hrun : run (Function.update R hourVar (hourEx.val R)) (toSun.map KStmt.erase) =
      run E (beforeHour.map KStmt.erase ++ .asg hourVar hourEx :: toSun.map KStmt.erase) := by
    rw [run_append]
    rfl
  refine ⟨?_, ?_⟩
  · have := (hfin cosxVar).range
    have hg : (heightState.get cosxVar).range = some (-2, 2, 13e-7) := by decide +kernel
    rw [hg] at this
    have := this.2.2
    rw [hrun, run_eq_sym, ← norm_val, h7, norm_val, height_val E (t := t) ?_ (k := k)] at this
    · refine this.trans (le_of_eq ?_)
      norm_num
    · rw [hE, Function.update_self]
    · have : nm "ttime" = Backend.fortran.var "ttime" := by decide
      rw [this, hE, Function.update_of_ne (by decide), ambient_ttime]
  · have h1 := (hfin limitVar).ratio
    have h2 := (hfin limitVar).logs
    have hg : (heightState.get limitVar) = ⟨some 121e-9, some (-69.088, -69.065), none⟩ := by decide +kernel
    rw [hg] at h1 h2
    set x := run (Function.update R hourVar (hourEx.val R)) (toSun.map KStmt.erase) limitVar
    have h2 : LogIn ((-69.088 : ℚ) : ℝ) ((-69.065 : ℚ) : ℝ) x := h2
    have h1 : Ratio ((121e-9 : ℚ) : ℝ) x (env limitVar) := h1
    have hpos := h1.pos h2.1
    refine ⟨hpos, ?_⟩
    have hlog := (abs_le.1 (h1.log h2.1)).2
    have h3 := h2.2.2
    push_cast at hlog h3
    rw [← Real.exp_log hpos]
    refine (Real.exp_le_exp.2 (show Real.log (env limitVar) ≤ -69 by linarith)).trans ?_
    have : Real.exp (-69) = (Real.exp 1 ^ 69)⁻¹ := by
      rw [← Real.exp_nat_mul, ← Real.exp_neg]; norm_num
    rw [this, inv_le_comm₀ (by positivity) (by norm_num)]
    refine le_trans ?_ (pow_le_pow_left₀ (by norm_num) Real.exp_one_gt_d9.le 69)
    norm_num


/-! ### The photolysis rates -/

theorem slot_inj {b : Backend} {i j : Nat} (h : b.slot i = b.slot j) : i = j := by
  unfold Backend.slot at h
  exact Option.some.inj (congrArg Var.idx h)

theorem asg_other {R : Rounding} {p : Var → Bool} {v : Var} (hv : p v = false) : ∀ {l : List KStmt} {env out : Vals},
    l.all (KStmt.isAsg p) = true → EvRun R env l out → out v = env v := by
  intro l
  induction l with
  | nil => intro env out _ h; cases h; rfl
  | cons s l ih =>
    intro env out hl h
    rw [List.all_cons, Bool.and_eq_true] at hl
    cases h with
    | cons h1 h2 =>
      rw [ih hl.2 h2]
      cases h1 with
      | @asg w e r h1 =>
        refine Function.update_of_ne (fun he => ?_) _ _
        rw [he] at hv
        have : p w = true := hl.1
        rw [hv] at this
        cases this
      | yes => cases hl.1
      | no => cases hl.1

theorem rows_run {R : Rounding} : ∀ {rows : List (Nat × ℚ × ℚ × ℚ)} {env out : Vals}, (rows.map Prod.fst).Nodup →
    EvRun R env (rows.map rowStmt) out →
    (∀ v : Var, (∀ k ∈ rows.map Prod.fst, v ≠ Backend.fortran.slot k) → out v = env v) ∧
    ∀ row ∈ rows, ∃ (mid : Vals) (r : KVal), mid cosxVar = env cosxVar ∧ mid secxVar = env secxVar ∧
      Ev R mid (rowEx row.2.1 row.2.2.1 row.2.2.2) r ∧ out (Backend.fortran.slot row.1) = r.toReal := by
  intro rows
  induction rows with
  | nil => intro env out _ h; cases h; exact ⟨fun _ _ => rfl, fun _ hr => by cases hr⟩
  | cons a rows ih =>
    intro env out hnd h
    rw [List.map_cons, List.nodup_cons] at hnd
    cases h with
    | cons h1 h2 =>
      cases h1 with
      | @asg _ _ r h1 =>
        obtain ⟨g1, g2⟩ := ih hnd.2 h2
        have c1 : cosxVar ≠ Backend.fortran.slot a.1 := fun he => by
          have := congrArg Var.idx he; cases this
        have c2 : secxVar ≠ Backend.fortran.slot a.1 := fun he => by
          have := congrArg Var.idx he; cases this
        refine ⟨fun v hv => ?_, fun row hrow => ?_⟩
        · rw [g1 v fun k hk => hv k (List.mem_cons_of_mem _ hk),
            Function.update_of_ne (hv a.1 (List.mem_cons_self ..))]
        · rcases List.mem_cons.1 hrow with rfl | hrow
          · refine ⟨env, r, rfl, rfl, h1, ?_⟩
            rw [g1 _ fun k hk he => hnd.1 (by rw [slot_inj he]; exact hk), Function.update_self]
          · obtain ⟨mid, r', e1, e2, e3, e4⟩ := g2 row hrow
            exact ⟨mid, r', by rw [e1, Function.update_of_ne c1], by rw [e2, Function.update_of_ne c2], e3, e4⟩

/-- The parts of a photolysis rate: factors near those of the formula. -/
theorem row_ev {env : Vals} {l m n : ℚ} {r : KVal} (hl : 1e-20 ≤ (l : ℝ)) (hl' : (l : ℝ) ≤ 1) (hm : 1e-20 ≤ (m : ℝ))
    (hm' : (m : ℝ) ≤ 10) (hn : 1e-20 ≤ (n : ℝ)) (hn' : (n : ℝ) ≤ 10) (hc : 0 ≤ env cosxVar) (hs : 0 ≤ env secxVar)
    (h : Ev ieee env (rowEx l m n) r) :
    ∃ m' d : ℝ, Ratio 1e-6 m m' ∧ Ratio 1e-6 (n * env secxVar) d ∧
      Ratio 1e-6 (l * env cosxVar ^ m' * Real.exp (-d)) r.toReal := by
  unfold rowEx at h
  have hpow : ∀ v, Ev ieee env (.bin .pow (.var cosxVar) (.num m (.real .single))) v →
      ∃ x, v = .real .double x ∧ ∃ m', Ratio 1e-7 m m' ∧ Ratio 3e-16 (env cosxVar ^ m') x := by
    intro v hv
    obtain ⟨x, y, z, p, g1, g2, g3, rfl, g4⟩ := ev_bin hv (fun v hv => ⟨_, ev_var hv⟩)
      (fun v hv => (ev_lit hv).imp fun _ => And.left)
    cases ev_var g1
    obtain ⟨y', hy', hy, -⟩ := ev_lit g2
    cases hy'
    obtain rfl := Option.some.inj (show some Prec.double = some p from g3)
    refine ⟨_, rfl, y, (round_single (le_trans (by norm_num) hm) (hm'.trans (by norm_num)) hy).mono (by norm_num), ?_⟩
    exact round_double (Real.rpow_nonneg hc _) g4
  have hlit : ∀ v, Ev ieee env (.bin .mul (.num l (.real .single)) (.bin .pow (.var cosxVar) (.num m (.real .single)))) v →
      ∃ x, v = .real .double x ∧ ∃ m', Ratio 1e-7 m m' ∧ Ratio 2e-7 (l * env cosxVar ^ m') x := by
    intro v hv
    obtain ⟨x, y, z, p, g1, g2, g3, rfl, g4⟩ := ev_bin hv (fun v hv => (ev_lit hv).imp fun _ => And.left)
      (fun v hv => (hpow v hv).imp fun _ => And.left)
    obtain ⟨x', hx', hx, -⟩ := ev_lit g1
    cases hx'
    obtain ⟨y', hy', m', k1, k2⟩ := hpow _ g2
    cases hy'
    obtain rfl := Option.some.inj (show some Prec.double = some p from g3)
    have hx := round_single (le_trans (by norm_num) hl) (hl'.trans (by norm_num)) hx
    have hmul := hx.mul k2
    exact ⟨_, rfl, m', k1, (hmul.trans (round_double hmul.nonneg g4)).mono (by norm_num)⟩
  have hone : ∀ v, Ev ieee env (.bin .mul (.num 1 (.real .single)) (.num n (.real .single))) v →
      ∃ x, v = .real .single x ∧ Ratio 2e-7 n x := by
    intro v hv
    obtain ⟨x, y, z, p, g1, g2, g3, rfl, g4⟩ := ev_bin hv (fun v hv => (ev_lit hv).imp fun _ => And.left)
      (fun v hv => (ev_lit hv).imp fun _ => And.left)
    obtain ⟨x', hx', -, hx⟩ := ev_lit g1
    cases hx'
    obtain ⟨y', hy', hy, -⟩ := ev_lit g2
    cases hy'
    obtain rfl := Option.some.inj (show some Prec.single = some p from g3)
    have hx := hx (isExact_exact (by decide +kernel))
    have hy := round_single (le_trans (by norm_num) hn) (hn'.trans (by norm_num)) hy
    have e : Op.mul.val x y = y := by rw [hx]; simp [Op.val]
    rw [e] at g4
    have hy1 : (10 : ℝ) ^ (-30 : ℤ) ≤ y := by
      refine le_trans ?_ hy.2.2.1
      have : (2 : ℝ)⁻¹ ≤ Real.exp (-6e-8) := by
        have := Real.add_one_le_exp (-6e-8 : ℝ)
        linarith
      have h2 : (1e-20 : ℝ) * 2⁻¹ ≤ n * Real.exp (-6e-8) := mul_le_mul hn this (by norm_num) (by linarith)
      refine le_trans ?_ h2
      norm_num
    have hy2 : y ≤ 10 ^ 38 := by
      refine hy.2.2.2.trans ?_
      have : Real.exp 6e-8 ≤ 3 := (Real.exp_le_exp.2 (by norm_num)).trans (Real.exp_one_lt_d9.le.trans (by norm_num))
      have h2 : (n : ℝ) * Real.exp 6e-8 ≤ 10 * 3 := mul_le_mul hn' this (Real.exp_pos _).le (by norm_num)
      exact h2.trans (by norm_num)
    exact ⟨_, rfl, (hy.trans (round_single hy1 hy2 g4)).mono (by norm_num)⟩
  have hexp : ∀ v, Ev ieee env (.call .exp (.neg (.bin .mul (.bin .mul (.num 1 (.real .single)) (.num n (.real .single)))
      (.var secxVar)))) v → ∃ x, v = .real .double x ∧ ∃ d, Ratio 1e-6 (n * env secxVar) d ∧
        Ratio 3e-16 (Real.exp (-d)) x := by
    intro v hv
    have hd : ∀ v, Ev ieee env (.bin .mul (.bin .mul (.num 1 (.real .single)) (.num n (.real .single)))
        (.var secxVar)) v → ∃ x, v = .real .double x ∧ Ratio 1e-6 (n * env secxVar) x := by
      intro v hv
      obtain ⟨x, y, z, p, g1, g2, g3, rfl, g4⟩ := ev_bin hv (fun v hv => (hone v hv).imp fun _ => And.left)
        (fun v hv => ⟨_, ev_var hv⟩)
      obtain ⟨x', hx', hx⟩ := hone _ g1
      cases hx'
      cases ev_var g2
      obtain rfl := Option.some.inj (show some Prec.double = some p from g3)
      have hmul := hx.mul (Ratio.refl hs)
      exact ⟨_, rfl, (hmul.trans (round_double hmul.nonneg g4)).mono (by norm_num)⟩
    cases hv with
    | call _ h1 _ h3 =>
      cases h1 with
      | @negReal _ _ d h1 =>
        obtain ⟨d', hd', hd⟩ := hd _ h1
        cases hd'
        exact ⟨_, rfl, d, hd, round_double (Real.exp_pos _).le h3⟩
  obtain ⟨x, y, z, p, g1, g2, g3, rfl, g4⟩ := ev_bin h (fun v hv => (hlit v hv).imp fun _ => And.left)
    (fun v hv => (hexp v hv).imp fun _ => And.left)
  obtain ⟨x', hx', m', k1, k2⟩ := hlit _ g1
  cases hx'
  obtain ⟨y', hy', d, k3, k4⟩ := hexp _ g2
  cases hy'
  obtain rfl := Option.some.inj (show some Prec.double = some p from g3)
  have hmul := k2.mul k4
  exact ⟨m', d, k1.mono (by norm_num), k3, (hmul.trans (round_double hmul.nonneg g4)).mono (by norm_num)⟩


theorem table_bounds {row : Nat × ℚ × ℚ × ℚ} (hr : row ∈ photolysisTable) :
    1e-20 ≤ (row.2.1 : ℝ) ∧ (row.2.1 : ℝ) ≤ 1 ∧ 1e-20 ≤ (row.2.2.1 : ℝ) ∧ (row.2.2.1 : ℝ) ≤ 10 ∧
      0.08 ≤ (row.2.2.2 : ℝ) ∧ (row.2.2.2 : ℝ) ≤ 10 := by
  have h := (by decide +kernel : ∀ row ∈ photolysisTable, (1e-20 ≤ row.2.1 ∧ row.2.1 ≤ 1 ∧ 1e-20 ≤ row.2.2.1 ∧
    row.2.2.1 ≤ 10 ∧ 0.08 ≤ row.2.2.2 ∧ row.2.2.2 ≤ 10 : Prop)) row hr
  obtain ⟨h1, h2, h3, h4, h5, h6⟩ := h
  have c1 : ((1e-20 : ℚ) : ℝ) = 1e-20 := by norm_num
  have c2 : ((0.08 : ℚ) : ℝ) = 0.08 := by norm_num
  rw [← c1, ← c2]
  exact ⟨by exact_mod_cast h1, by exact_mod_cast h2, by exact_mod_cast h3, by exact_mod_cast h4,
    by exact_mod_cast h5, by exact_mod_cast h6⟩

theorem exp_15 : Real.exp (-15) ≤ 4e-7 := by
  have : Real.exp (-15) = (Real.exp 1 ^ 15)⁻¹ := by
    rw [← Real.exp_nat_mul, ← Real.exp_neg]; norm_num
  rw [this, inv_le_comm₀ (by positivity) (by norm_num)]
  refine le_trans ?_ (pow_le_pow_left₀ (by norm_num) Real.exp_one_gt_d9.le 15)
  norm_num

theorem exp_small {e : ℝ} (h : e ≤ 1e-5) : Real.exp e ≤ 1.001 := by
  refine (Real.exp_le_exp.2 h).trans ?_
  have h1 := Real.exp_bound' (x := 1e-5) (by norm_num) (by norm_num) (n := 1) (by norm_num)
  refine h1.trans ?_
  norm_num

theorem exp_low {e : ℝ} (h : e ≤ 1e-5) : 0.999 ≤ Real.exp (-e) := by
  have := Real.add_one_le_exp (-e)
  linarith

/-- The formula when the sun is low. -/
theorem formula_low {l m n c : ℝ} (hl : 0 ≤ l) (hm : 0 ≤ m) (hn : 0.08 ≤ n) (hc : 0 < c) (hc' : c ≤ 0.0051) :
    l * c ^ m * Real.exp (-n / c) ≤ 1e-6 * l := by
  have h1 : c ^ m ≤ 1 := Real.rpow_le_one hc.le (by linarith) hm
  have h2 : Real.exp (-n / c) ≤ 4e-7 := by
    refine le_trans (Real.exp_le_exp.2 ?_) exp_15
    rw [neg_div, neg_le_neg_iff, le_div_iff₀ hc]
    linarith
  calc l * c ^ m * Real.exp (-n / c) ≤ l * 1 * 4e-7 := by
        refine mul_le_mul (mul_le_mul_of_nonneg_left h1 hl) h2 (Real.exp_pos _).le (by linarith)
    _ ≤ 1e-6 * l := by linarith

/-- A photolysis rate as computed, when the computed height of the sun is low. -/
theorem row_low {env : Vals} {row : Nat × ℚ × ℚ × ℚ} (hr : row ∈ photolysisTable) {r : KVal} (hc : 0 < env cosxVar)
    (hc' : env cosxVar ≤ 0.0051) (hs : Ratio 1e-6 (1 / env cosxVar) (env secxVar))
    (h : Ev ieee env (rowEx row.2.1 row.2.2.1 row.2.2.2) r) : 0 ≤ r.toReal ∧ r.toReal ≤ 1e-6 * row.2.1 := by
  obtain ⟨l1, l2, m1, m2, n1, n2⟩ := table_bounds hr
  set c := env cosxVar
  have hs0 := hs.nonneg
  obtain ⟨m', d, g1, g2, g3⟩ := row_ev l1 l2 m1 m2 (le_trans (by norm_num) n1) n2 hc.le hs0 h
  refine ⟨g3.nonneg, ?_⟩
  have hl0 : (0 : ℝ) ≤ row.2.1 := by linarith
  have hd : 15 ≤ d := by
    have e1 : 0.999 ≤ Real.exp (-1e-6) := exp_low (by norm_num)
    have e2 : 1 / c * 0.999 ≤ env secxVar :=
      (mul_le_mul_of_nonneg_left e1 (by positivity)).trans hs.2.2.1
    have e3 : (row.2.2.2 : ℝ) * env secxVar * 0.999 ≤ d :=
      (mul_le_mul_of_nonneg_left e1 (mul_nonneg (by linarith) hs0)).trans g2.2.2.1
    have e4 : 196 ≤ 1 / c := by rw [le_div_iff₀ hc]; linarith
    nlinarith
  have h1 : c ^ m' ≤ 1 := Real.rpow_le_one hc.le (by linarith) g1.nonneg
  have h2 : Real.exp (-d) ≤ 4e-7 := (Real.exp_le_exp.2 (by linarith)).trans exp_15
  have h3 : (row.2.1 : ℝ) * c ^ m' * Real.exp (-d) ≤ row.2.1 * 1 * 4e-7 :=
    mul_le_mul (mul_le_mul_of_nonneg_left h1 hl0) h2 (Real.exp_pos _).le (by linarith)
  have h4 : Real.exp 1e-6 ≤ 1.001 := exp_small (by norm_num)
  calc r.toReal ≤ row.2.1 * c ^ m' * Real.exp (-d) * Real.exp 1e-6 := g3.2.2.2
    _ ≤ row.2.1 * 1 * 4e-7 * 1.001 := mul_le_mul h3 h4 (Real.exp_pos _).le (by positivity)
    _ ≤ 1e-6 * row.2.1 := by linarith

/-- Without sun the rate is zero. -/
theorem row_dark {env : Vals} {row : Nat × ℚ × ℚ × ℚ} (hr : row ∈ photolysisTable) {r : KVal} (hc : env cosxVar = 0)
    (hs : 0 ≤ env secxVar) (h : Ev ieee env (rowEx row.2.1 row.2.2.1 row.2.2.2) r) : r.toReal = 0 := by
  obtain ⟨l1, l2, m1, m2, n1, n2⟩ := table_bounds hr
  obtain ⟨m', d, g1, g2, g3⟩ := row_ev l1 l2 m1 m2 (le_trans (by norm_num) n1) n2 hc.ge hs h
  have hm : 0 < m' := g1.pos (by linarith)
  rw [hc, Real.zero_rpow hm.ne', mul_zero, zero_mul] at g3
  exact g3.zero

/-- What the analysis finds for a height between two bounds. -/
theorem row_band {a b e x : ℚ} (hb : bandOk a b e x = true) {env : Vals} {row : Nat × ℚ × ℚ × ℚ}
    (hr : row ∈ photolysisTable) {r : KVal} {c : ℝ} (ha : (a : ℝ) ≤ c) (hcb : c ≤ b) (hc0 : 0 < c)
    (hc : |env cosxVar - c| ≤ 13e-7) {start : Vals} (hst : start cosxVar = env cosxVar) {rs : KVal}
    (hs : Ev ieee start secxEx rs) (hs' : env secxVar = rs.toReal)
    (h : Ev ieee env (rowEx row.2.1 row.2.2.1 row.2.2.2) r) :
    Ratio e (row.2.1 * c ^ (row.2.2.1 : ℝ) * Real.exp (-row.2.2.2 / c)) r.toReal ∧
    |r.toReal - row.2.1 * c ^ (row.2.2.1 : ℝ) * Real.exp (-row.2.2.2 / c)| ≤ x * row.2.1 := by
  have hcos : (heightErr a b).holds c (env cosxVar) := by
    refine tidy_holds ⟨trivial, trivial, ha, hcb, hc.trans (le_of_eq ?_)⟩
    norm_num
  have hsec : (errOf [(cosxVar, heightErr a b)] secxEx).holds (1 / c) (env secxVar) := by
    have hS : ErrSt.Sound [(cosxVar, heightErr a b)] (fun _ => c) start := by
      intro v
      rw [ErrSt.get]
      split
      · rename_i hv
        rw [← hv]
        dsimp only
        rw [hst]
        exact hcos
      · exact Err.top_holds _ _
    have := errOf_holds hS hs
    rw [hs']
    have hval : secxEx.erase.val (fun _ => c) = 1 / c := by
      unfold secxEx
      simp only [KEx.erase, Ex.val]
      push_cast
      rfl
    rw [hval] at this
    exact this
  have hE : (bandState a b).Sound (fun v => if v = secxVar then 1 / c else c) env := by
    intro v
    unfold bandState
    rw [ErrSt.get]
    split
    · rename_i hv
      rw [← hv]
      dsimp only
      rw [if_pos rfl]
      exact hsec
    · rename_i hv1
      rw [ErrSt.get]
      split
      · rename_i hv
        dsimp only at hv1 hv ⊢
        rw [if_neg (fun hh : v = secxVar => hv1 hh.symm), ← hv]
        exact hcos
      · exact Err.top_holds _ _
  have hv := errOf_holds hE h
  have hval : (rowEx row.2.1 row.2.2.1 row.2.2.2).erase.val (fun v => if v = secxVar then 1 / c else c) =
      row.2.1 * c ^ (row.2.2.1 : ℝ) * Real.exp (-row.2.2.2 / c) := by
    have hne : cosxVar ≠ secxVar := by decide
    unfold rowEx
    simp only [KEx.erase, Ex.val, Fn.val, if_true, if_neg hne]
    congr 2
    push_cast
    field_simp
  rw [hval] at hv
  unfold bandOk at hb
  have := List.all_eq_true.1 hb row hr
  rw [forceErr_eq] at this
  split at this
  · rename_i d p h1 h2
    obtain ⟨k1, k2⟩ := of_decide_eq_true this
    have e1 := hv.ratio
    have e2 := hv.range
    rw [h1] at e1
    rw [h2] at e2
    refine ⟨Ratio.mono e1 (by exact_mod_cast k1), e2.2.2.trans ?_⟩
    have : ((p.2.2 : ℚ) : ℝ) ≤ ((x * row.2.1 : ℚ) : ℝ) := by exact_mod_cast k2
    push_cast at this
    exact this
  · cases this

theorem band_of {c : ℝ} (h1 : 0.005 ≤ c) (h2 : c ≤ 1) : ∃ p ∈ sunBands, (p.1 : ℝ) ≤ c ∧ c ≤ p.2 := by
  have key : ∀ a b : ℚ, (a, b) ∈ sunBands → (a : ℝ) ≤ c → c ≤ b → ∃ p ∈ sunBands, (p.1 : ℝ) ≤ c ∧ c ≤ p.2 :=
    fun a b hm ha hb => ⟨(a, b), hm, ha, hb⟩
  rcases le_total c 0.01 with h | h
  · exact key 0.005 0.01 (by decide +kernel) (by push_cast; linarith) (by push_cast; linarith)
  rcases le_total c 0.02 with h' | h'
  · exact key 0.01 0.02 (by decide +kernel) (by push_cast; linarith) (by push_cast; linarith)
  rcases le_total c 0.04 with h | h
  · exact key 0.02 0.04 (by decide +kernel) (by push_cast; linarith) (by push_cast; linarith)
  rcases le_total c 0.08 with h' | h'
  · exact key 0.04 0.08 (by decide +kernel) (by push_cast; linarith) (by push_cast; linarith)
  rcases le_total c 0.16 with h | h
  · exact key 0.08 0.16 (by decide +kernel) (by push_cast; linarith) (by push_cast; linarith)
  rcases le_total c 0.32 with h' | h'
  · exact key 0.16 0.32 (by decide +kernel) (by push_cast; linarith) (by push_cast; linarith)
  rcases le_total c 0.64 with h | h
  · exact key 0.32 0.64 (by decide +kernel) (by push_cast; linarith) (by push_cast; linarith)
  · exact key 0.64 1.1 (by decide +kernel) (by push_cast; linarith) (by push_cast; linarith)

/-- **C85**: the photolysis rates as the Fortran file computes them, in single and double precision, at any time up to
thirty years: never negative; nothing at night; off by no more than `4e-5` of the scale `l` of the rate; and within
`0.012 %` when the sun is at least 6 degrees high. -/
theorem C85_photolysis {T t r h2o : ℝ} {junk env : Vals} (ht : 0 ≤ t) (ht' : t ≤ 1000000000)
    (h : EvRun ieee (ambient .fortran T t r h2o junk) kRateProgram env)
    {k : Nat} {l m n : ℚ} (hr : (k, l, m, n) ∈ photolysisTable) :
    0 ≤ env (Backend.fortran.slot k) ∧
    (sunHeight t ≤ -13e-7 → env (Backend.fortran.slot k) = 0) ∧
    |env (Backend.fortran.slot k) - photolysisRate t l m n| ≤ 4e-5 * l ∧
    (0.1 ≤ sunHeight t → WithinFactor 1.2e-4 (photolysisRate t l m n) (env (Backend.fortran.slot k))) := by
  obtain ⟨l1, l2, m1, m2, n1, n2⟩ := table_bounds hr
  dsimp only at l1 l2 m1 m2 n1 n2
  have hl0 : (0 : ℝ) ≤ l := by linarith
  rw [hour_split, sun_split] at h
  have hassoc : beforeHour ++ hourStmt :: (toSun ++ upStmt :: (photolysisTable.map rowStmt ++ steadyPart)) =
      (beforeHour ++ (hourStmt :: toSun)) ++ (upStmt :: (photolysisTable.map rowStmt ++ steadyPart)) := by
    simp
  rw [hassoc] at h
  obtain ⟨e1, hsun, h⟩ := evRun_append.1 h
  obtain ⟨hnear, hlim, hlim'⟩ := height_near ht ht' hsun
  obtain ⟨hn1, hn2⟩ := abs_le.1 hnear
  cases h with
  | @cons _ e2 _ _ _ hup h =>
  obtain ⟨e3, hrows, hrest⟩ := evRun_append.1 h
  have hkeep : env (Backend.fortran.slot k) = e3 (Backend.fortran.slot k) :=
    asg_other (p := fun v => decide (v.name ≠ Backend.fortran.name "J".toList)) (by
      simp only [ne_eq, decide_not, Bool.not_eq_false', decide_eq_true_eq]; rfl) sun_facts.2.1 hrest
  obtain ⟨-, hall⟩ := rows_run (by decide +kernel) hrows
  obtain ⟨mid, val, c1, c2, hev, hout⟩ := hall _ hr
  dsimp only at hev hout
  rw [hkeep, hout]
  have hle1 := sunHeight_le_one t
  set c := sunHeight t with hcdef
  -- the exact rate when the sun is low
  have hexact : c ≤ 0.0051 → 0 ≤ photolysisRate t l m n ∧ photolysisRate t l m n ≤ 1e-6 * l := by
    intro hc
    unfold photolysisRate
    rw [← hcdef]
    split
    · exact ⟨le_rfl, by linarith⟩
    · rename_i hpos
      have hc0 : 0 < c := lt_trans (by norm_num) (not_le.1 hpos)
      exact ⟨by positivity, formula_low hl0 (by linarith) n1 hc0 hc⟩
  cases hup with
  | yes g1 g2 g3 g4 =>
    obtain rfl := ev_var g1
    obtain rfl := ev_var g2
    have g3 : e1 cosxVar ≤ e1 limitVar := g3
    cases g4 with
    | cons g4 g5 =>
    cases g5 with
    | cons g5 g6 =>
    cases g6
    obtain ⟨x0, rfl, -, hx0⟩ := ev_lit g4
    obtain ⟨x1, rfl, hx1, -⟩ := ev_lit g5
    have hne : cosxVar ≠ secxVar := by decide
    have hc0 : mid cosxVar = 0 := by
      rw [c1, Function.update_of_ne hne, Function.update_self]
      show x0 = 0
      rw [hx0 (isExact_exact (by decide +kernel))]
      simp
    have hs0 : 0 ≤ mid secxVar := by
      rw [c2, Function.update_self]
      exact (round_single (by norm_num) (by norm_num) hx1).nonneg
    have hz := row_dark hr hc0 hs0 hev
    have hlow : c ≤ 0.0051 := by linarith
    obtain ⟨p1, p2⟩ := hexact hlow
    rw [hz]
    refine ⟨le_rfl, fun _ => rfl, ?_, fun hc => by linarith⟩
    rw [zero_sub, abs_neg, abs_of_nonneg p1]
    linarith
  | no g1 g2 g3 g4 =>
    obtain rfl := ev_var g1
    obtain rfl := ev_var g2
    have g3 : e1 limitVar < e1 cosxVar := not_le.1 g3
    cases g4 with
    | cons g4 g6 =>
    cases g6
    have hne : cosxVar ≠ secxVar := by decide
    have hcos : mid cosxVar = e1 cosxVar := by rw [c1, Function.update_of_ne hne]
    have hcpos : 0 < mid cosxVar := by rw [hcos]; linarith
    have hdark : ¬ c ≤ -13e-7 := by linarith
    have hsec0 : Ratio 1e-6 (1 / mid cosxVar) (mid secxVar) := by
      rw [c2, Function.update_self, hcos]
      obtain ⟨x, y, z, p, q1, q2, q3, rfl, q4⟩ := ev_bin g4 (fun v hv => (ev_lit hv).imp fun _ => And.left)
        (fun v hv => ⟨_, ev_var hv⟩)
      obtain ⟨x', hx', -, hx⟩ := ev_lit q1
      cases hx'
      cases ev_var q2
      obtain rfl := Option.some.inj (show some Prec.double = some p from q3)
      rw [hx (isExact_exact (by decide +kernel))] at q4
      have e : Op.div.val ((1 : ℚ) : ℝ) (e1 cosxVar) = 1 / e1 cosxVar := by simp [Op.val]
      rw [e] at q4
      exact (round_double (by rw [hcos] at hcpos; positivity) q4).mono (by norm_num)
    have hgen := row_ev l1 l2 m1 m2 (le_trans (by norm_num) n1) n2 hcpos.le hsec0.nonneg hev
    have hnn : 0 ≤ val.toReal := by obtain ⟨_, _, -, -, g⟩ := hgen; exact g.nonneg
    refine ⟨hnn, fun hd => absurd hd hdark, ?_, ?_⟩
    · rcases le_total c 0.005 with hc | hc
      · obtain ⟨p1, p2⟩ := hexact (by linarith)
        obtain ⟨p3, p4⟩ := row_low hr hcpos (by rw [hcos]; linarith) hsec0 hev
        dsimp only at p4
        rw [abs_le]
        constructor <;> linarith
      · obtain ⟨p, hp, ha, hb⟩ := band_of hc hle1
        have := (row_band (List.all_eq_true.1 facts_bands p hp) hr ha hb (by linarith) (by rw [hcos]; exact hnear)
          hcos.symm g4 (by rw [c2, Function.update_self]) hev).2
        have hx : ((4e-5 : ℚ) : ℝ) = 4e-5 := by norm_num
        rw [hx] at this
        unfold photolysisRate
        rw [← hcdef, if_neg (by linarith)]
        exact this
    · intro hc
      have := (row_band facts_high hr (c := c) (by push_cast; linarith) (by push_cast; linarith) (by linarith)
        (by rw [hcos]; exact hnear) hcos.symm g4 (by rw [c2, Function.update_self]) hev).1
      have hx : ((1.2e-4 : ℚ) : ℝ) = 1.2e-4 := by norm_num
      rw [hx] at this
      unfold photolysisRate
      rw [← hcdef, if_neg (by linarith)]
      exact ratio_within this

/-- The sun is high at noon. -/
theorem noon_high : 0.1 ≤ sunHeight solarNoon := by
  have h0 := sunHeight_noon 0
  simp only [add_zero, mul_zero, zero_div, Real.cos_zero, one_mul] at h0
  rw [h0, ← Real.cos_sub]
  have hd : -0.4752 ≤ declination ∧ declination ≤ 0.489 := by
    unfold declination
    simp only
    set θ := 2 * Real.pi * 149 / 365
    have := Real.neg_one_le_cos θ
    have := Real.cos_le_one θ
    have := Real.neg_one_le_sin θ
    have := Real.sin_le_one θ
    have := Real.neg_one_le_cos (2 * θ)
    have := Real.cos_le_one (2 * θ)
    have := Real.neg_one_le_sin (2 * θ)
    have := Real.sin_le_one (2 * θ)
    have := Real.neg_one_le_cos (3 * θ)
    have := Real.cos_le_one (3 * θ)
    have := Real.neg_one_le_sin (3 * θ)
    have := Real.sin_le_one (3 * θ)
    constructor <;> linarith
  have hp1 := Real.pi_gt_d4
  have hp2 := Real.pi_lt_d4
  have hl : 0.89 ≤ latitude ∧ latitude ≤ 0.9 := by
    unfold latitude
    constructor <;> linarith
  rw [← Real.sin_pi_div_two_sub]
  have h1 : 0.195 ≤ Real.pi / 2 - (latitude - declination) := by linarith [hd.1, hl.2]
  have h2 := Real.mul_le_sin (x := Real.pi / 2 - (latitude - declination)) (by linarith)
    (by linarith [hd.2, hl.1])
  refine le_trans ?_ h2
  have h3 : 0.6 ≤ 2 / Real.pi := by rw [le_div_iff₀ Real.pi_pos]; linarith
  nlinarith

theorem noon_bounds : 0 ≤ solarNoon ∧ solarNoon ≤ 100000 := by
  have he : |equationOfTime| ≤ 0.09 := by
    unfold equationOfTime
    simp only
    set θ := 2 * Real.pi * 149 / 365
    have := Real.neg_one_le_cos θ
    have := Real.cos_le_one θ
    have := Real.neg_one_le_sin θ
    have := Real.sin_le_one θ
    have := Real.neg_one_le_cos (2 * θ)
    have := Real.cos_le_one (2 * θ)
    have := Real.neg_one_le_sin (2 * θ)
    have := Real.sin_le_one (2 * θ)
    rw [abs_le]
    constructor <;> linarith
  obtain ⟨h1, h2⟩ := abs_le.1 he
  have hp := Real.pi_gt_d4
  have h3 : |equationOfTime / (2 * Real.pi)| ≤ 0.09 := by
    rw [abs_div, div_le_iff₀ (by positivity)]
    rw [abs_of_pos (show (0 : ℝ) < 2 * Real.pi by positivity)]
    linarith
  obtain ⟨h4, h5⟩ := abs_le.1 h3
  unfold solarNoon
  constructor <;> linarith

/-- The program runs; at noon the rate of the first row is within `0.012 %` and not zero. -/
example (junk : Vals) :
    (∃ env, EvRun ieee (ambient .fortran 298.15 solarNoon 0 0 junk) kRateProgram env) ∧
    ∀ env, EvRun ieee (ambient .fortran 298.15 solarNoon 0 0 junk) kRateProgram env →
      0 < photolysisRate solarNoon 6.073e-5 1.743 0.474 ∧
      WithinFactor 1.2e-4 (photolysisRate solarNoon 6.073e-5 1.743 0.474) (env (Backend.fortran.slot 1)) := by
  obtain ⟨hn, hn'⟩ := noon_bounds
  refine ⟨⟨_, (fixed_runs junk (by norm_num) le_rfl (by rw [abs_of_nonneg hn]; linarith)).mono
    fun p x y => exactly_ieee⟩, fun env h => ?_⟩
  have hmem : ((1 : Nat), (6.073e-5 : ℚ), (1.743 : ℚ), (0.474 : ℚ)) ∈ photolysisTable := by decide +kernel
  have h1 := (C85_photolysis hn (by linarith) h hmem).2.2.2 noon_high
  have h2 := (C47_photolysis .fortran (by decide) 298.15 solarNoon 0 0 junk 1 _ _ _ hmem).2.2.2
    (lt_of_lt_of_le (by norm_num) noon_high)
  push_cast at h1 h2
  exact ⟨h2, h1⟩

end PyBox
