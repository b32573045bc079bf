import Verif.Rate.Facts
import Mathlib.Analysis.Real.Pi.Bounds
import Mathlib.Algebra.Order.Floor.Ring

/-!
# C47, C48 and C50: the fixed part of the generated rate files
-/

namespace PyBox

open Rl

/-! ### Specification -/

namespace Spec

/-- Solar declination on 30 May (day 150), Spencer's formula, radians. -/
noncomputable def declination : ℝ :=
  let θ := 2 * Real.pi * 149 / 365
  0.006918 - 0.399912 * Real.cos θ + 0.070257 * Real.sin θ - 0.006758 * Real.cos (2 * θ)
    + 0.000907 * Real.sin (2 * θ) - 0.002697 * Real.cos (3 * θ) + 0.00148 * Real.sin (3 * θ)

/-- The equation of time on that day, radians. -/
noncomputable def equationOfTime : ℝ :=
  let θ := 2 * Real.pi * 149 / 365
  0.000075 + 0.001868 * Real.cos θ - 0.032077 * Real.sin θ - 0.014615 * Real.cos (2 * θ)
    - 0.040849 * Real.sin (2 * θ)

/-- Local hour angle `t` seconds after midnight; it depends on the time of day only. -/
noncomputable def hourAngle (t : ℝ) : ℝ :=
  Real.pi * (2 * Int.fract (t / 86400) - (1 + 0.13 / 180)) + equationOfTime

/-- Latitude 51.51 degrees. -/
noncomputable def latitude : ℝ := 51.51 * Real.pi / 180

/-- The sine of the height of the sun above the horizon. -/
noncomputable def sunHeight (t : ℝ) : ℝ :=
  Real.cos (hourAngle t) * (Real.cos latitude * Real.cos declination)
    + Real.sin latitude * Real.sin declination

/-- The photolysis parameterisation `l * cosx^m * exp(-n * secx)`, switched off when the sun is not
above the horizon by more than `1e-30`. -/
noncomputable def photolysisRate (t : ℝ) (l m n : ℝ) : ℝ :=
  if sunHeight t ≤ 1e-30 then 0 else l * sunHeight t ^ m * Real.exp (-n / sunHeight t)

/-- Values on entry to `evaluate_rates`: temperature, time, sum of peroxy radicals, water; every other
variable has any value. -/
noncomputable def ambient (b : Backend) (T t r h : ℝ) (junk : Vals) : Vals := fun v =>
  if v = b.var "temp" then T
  else if v = b.var "ttime" then t
  else if v = b.var "RO2" then r
  else if v = b.var "H2O" then h
  else junk v

end Spec

open Spec

theorem okRun_append (p q : List Stmt) : ∀ env : Vals, OkRun env (p ++ q) → OkRun (run env p) q := by
  induction p with
  | nil => intro env h; exact h
  | cons s p ih => intro env h; exact ih (s.run env) h.2

attribute [local irreducible] rateProgram OkRun

/-! ### Reading -/

/-- The texts are programs in the language of `Rate/Lang.lean`, so `rateProgram` is what they say. -/
theorem rate_text_reads (b : Backend) : program b (writesOf b) = some (rateProgram b) := by
  have h := facts_common b
  unfold commonFacts at h
  simp only [Bool.and_eq_true] at h
  obtain ⟨p, hp⟩ := Option.isSome_iff_exists.1 h.1.1.1.1
  rw [rateProgram, hp]
  rfl

/-- Value of a variable after the program, from its symbolic value. -/
theorem run_eq_sym (env : Vals) (p : List Stmt) (v : Var) :
    run env p v = ((symRun [] p).get v).val env := by
  have h := congrFun (symRun_vals env p []) v
  have h0 : Sy.vals [] env = env := by funext w; rfl
  rw [h0] at h
  exact h.symm

/-! ### C48 -/

theorem closed_of (b : Backend) (s : String) (hs : s ∈ coefficientNames) :
    ∀ v ∈ ((symRun [] (rateProgram b)).get (b.var s)).vars, v = b.var "temp" ∨ v = b.var "H2O" := by
  have h := facts_common b
  unfold commonFacts at h
  simp only [Bool.and_eq_true] at h
  have h1 := h.1.1.1.2
  unfold coefficientsClosed at h1
  rw [List.all_eq_true] at h1
  have h2 := h1 s hs
  unfold closedIn at h2
  rw [List.all_eq_true] at h2
  intro v hv
  have h3 := h2 v hv
  rw [decide_eq_true_eq] at h3
  simpa using h3

theorem agree_of (b c : Backend) (s : String) (hs : s ∈ coefficientNames) :
    coefficientOf b s = coefficientOf c s := by
  have h := facts_agree
  rw [Bool.and_eq_true] at h
  unfold coefficientsAgree at h
  rw [List.all_eq_true, List.all_eq_true] at h
  have h1 : coefficientOf .python s = coefficientOf .numba s := by
    have := h.1 s hs; rwa [decide_eq_true_eq] at this
  have h2 : coefficientOf .numba s = coefficientOf .fortran s := by
    have := h.2 s hs; rwa [decide_eq_true_eq] at this
  cases b <;> cases c <;> simp [h1, h2]

theorem lowVar_temp (b : Backend) : lowVar (b.var "temp") = Backend.fortran.var "temp" := by
  cases b <;> decide

theorem lowVar_H2O (b : Backend) : lowVar (b.var "H2O") = Backend.fortran.var "H2O" := by
  cases b <;> decide

theorem ambient_temp (b : Backend) (T t r h : ℝ) (junk : Vals) :
    ambient b T t r h junk (b.var "temp") = T := by
  unfold ambient; rw [if_pos rfl]

theorem ambient_ttime (b : Backend) (T t r h : ℝ) (junk : Vals) :
    ambient b T t r h junk (b.var "ttime") = t := by
  unfold ambient
  rw [if_neg (by cases b <;> decide), if_pos rfl]

theorem ambient_H2O (b : Backend) (T t r h : ℝ) (junk : Vals) :
    ambient b T t r h junk (b.var "H2O") = h := by
  unfold ambient
  rw [if_neg (by cases b <;> decide), if_neg (by cases b <;> decide), if_neg (by cases b <;> decide),
    if_pos rfl]

/-- The value of a coefficient depends on its normal form, the temperature and the water
concentration only. -/
theorem coefficient_val (b : Backend) (T t r h : ℝ) (junk : Vals) (s : String)
    (hs : s ∈ coefficientNames) :
    run (ambient b T t r h junk) (rateProgram b) (b.var s) =
      (coefficientOf b s).val (ambient .fortran T 0 0 h (fun _ => 0)) := by
  rw [run_eq_sym, coefficientOf, norm_val, Ex.val_rename]
  refine Ex.val_congr _ (fun v hv => ?_)
  rcases closed_of b s hs v hv with rfl | rfl
  · rw [ambient_temp, lowVar_temp, ambient_temp]
  · rw [ambient_H2O, lowVar_H2O, ambient_H2O]

/-- C48. Each generic coefficient has the same value after any two of the three generated programs, for
every temperature and water concentration; it depends on nothing else (not on time, peroxy radicals or
values left over from an earlier call). -/
theorem C48_same_coefficients (b c : Backend) (T t t' r r' h : ℝ) (junk junk' : Vals) (s : String)
    (hs : s ∈ coefficientNames) :
    run (ambient b T t r h junk) (rateProgram b) (b.var s) =
      run (ambient c T t' r' h junk') (rateProgram c) (c.var s) := by
  rw [coefficient_val b T t r h junk s hs, coefficient_val c T t' r' h junk' s hs, agree_of b c s hs]

/-- The names occur in the programs: after the program the variable holds a value computed there,
whatever it held before. -/
example : "KMT17" ∈ coefficientNames := by decide

/-! ### C50: no numerical error, positive coefficients -/

theorem start_sound (b : Backend) (T t r h : ℝ) (junk : Vals) (hT : 0 < T) (hh : 0 ≤ h) :
    (startInfo b).Sound (ambient b T t r h junk) := by
  intro v
  unfold startInfo
  rw [St.get]
  split
  · rename_i hv
    rw [← hv]
    refine ⟨?_, trivial⟩
    rw [ambient_temp]; exact hT
  · rw [St.get]
    split
    · rename_i hv
      rw [← hv]
      refine ⟨?_, trivial⟩
      rw [ambient_H2O]; exact hh
    · exact ⟨trivial, trivial⟩

theorem signs_of (b : Backend) (hb : b ≠ .python) : signCheck b = true := by
  cases b with
  | python => exact absurd rfl hb
  | numba =>
    have := facts_numba
    rw [Bool.and_eq_true] at this
    exact this.2
  | fortran =>
    have := facts_fortran
    rw [Bool.and_eq_true, Bool.and_eq_true] at this
    exact this.1.2

/-- C50. In the numba and Fortran programs, for every positive temperature, every water concentration
that is not negative and every time: no statement divides by zero, takes the logarithm of a number that
is not positive or a fractional power of a negative number; every generic coefficient is positive and
every photolysis rate is not negative. -/
theorem C50_defined_positive (b : Backend) (hb : b ≠ .python) (T t r h : ℝ) (junk : Vals) (hT : 0 < T)
    (hh : 0 ≤ h) :
    OkRun (ambient b T t r h junk) (rateProgram b) ∧
    (∀ s ∈ coefficientNames, 0 < run (ambient b T t r h junk) (rateProgram b) (b.var s)) ∧
    (∀ row ∈ photolysisTable, 0 ≤ run (ambient b T t r h junk) (rateProgram b) (b.slot row.1)) := by
  have hc := signs_of b hb
  unfold signCheck at hc
  split at hc
  · rename_i s hs
    obtain ⟨h1, h2⟩ := absRun_holds _ (start_sound b T t r h junk hT hh) hs
    rw [Bool.and_eq_true, List.all_eq_true, List.all_eq_true] at hc
    refine ⟨h1, fun c hmem => ?_, fun row hmem => Sgn.nonneg_of (h2 _).1 (hc.2 row hmem)⟩
    have := (h2 (b.var c)).1
    have hp := hc.1 c hmem
    rw [decide_eq_true_eq] at hp
    rw [hp] at this
    exact this
  · cases hc

example : OkRun (ambient .numba 298.15 43200 0 0 (fun _ => 0)) (rateProgram .numba) :=
  (C50_defined_positive .numba (by decide) 298.15 43200 0 0 (fun _ => 0) (by norm_num) le_rfl).1

/-- Every variable is given a value before it is read, starting from the arguments of the
function; in Fortran every name is declared. -/
theorem C50_names (b : Backend) : wellScoped (argumentsOf b) (rateProgram b) = true ∧
    (b = .fortran → declaredCheck = true) := by
  have h := facts_common b
  unfold commonFacts at h
  rw [Bool.and_eq_true] at h
  refine ⟨h.2, fun _ => ?_⟩
  have := facts_fortran
  rw [Bool.and_eq_true] at this
  exact this.2

/-! ### C47 -/

/-- The value of a table entry, from the values of `cosx` and `secx` before the photolysis part. -/
theorem slot_val (b : Backend) (env : Vals) (row : Nat × ℚ × ℚ × ℚ) (hr : row ∈ photolysisTable) :
    run env (rateProgram b) (b.slot row.1) =
      row.2.1 * run env (solarPart b) (nm "cosx") ^ (row.2.2.1 : ℝ) *
        Real.exp (-row.2.2.2 * run env (solarPart b) (nm "secx")) := by
  have h := facts_common b
  unfold commonFacts at h
  simp only [Bool.and_eq_true] at h
  have h1 := h.1.1.2
  unfold photolysisCheck at h1
  rw [List.all_eq_true] at h1
  have h2 := h1 row hr
  rw [decide_eq_true_eq] at h2
  rw [parts b, run_append, run_eq_sym _ (ratePart b), ← norm_val, h2, norm_val]
  simp only [photolysisEx, Ex.val, Fn.val]
  push_cast
  rfl

theorem solar_of (b : Backend) (hb : b ≠ .python) : solarCheck b = true := by
  cases b with
  | python => exact absurd rfl hb
  | numba =>
    have := facts_numba
    rw [Bool.and_eq_true, Bool.and_eq_true] at this
    exact this.1.2
  | fortran =>
    have := facts_fortran
    rw [Bool.and_eq_true, Bool.and_eq_true, Bool.and_eq_true] at this
    exact this.1.1.2

theorem four_arctan_one : 4 * Real.arctan 1 = Real.pi := by
  rw [Real.arctan_one]; ring

/-- Whole days do not change the position of the sun. -/
theorem cos_hourAngle (t : ℝ) (k : ℤ) :
    Real.cos (Real.pi * (2 * (149 + t / 86400 - k) - (1 + 0.13 / 180)) + equationOfTime) =
      Real.cos (hourAngle t) := by
  have h := Real.cos_add_int_mul_two_pi (hourAngle t) (149 - k + ⌊t / 86400⌋)
  rw [← h]
  congr 1
  unfold hourAngle
  rw [Int.fract]
  push_cast
  ring

/-- The expression of the programs is the sine of the height of the sun. -/
theorem zenith_val (f : Fn) (env : Vals) (t : ℝ) (ht : env (nm "ttime") = t) {k : ℤ}
    (hf : f.val (149 + t / 86400) = (k : ℝ)) : (zenithEx f).val env = sunHeight t := by
  unfold zenithEx sunHeight latitude
  have hpi := four_arctan_one
  simp only [Ex.val, ht]
  have e1 : (((150 : ℚ) : ℝ) - ((1 : ℚ) : ℝ) + t / ((86400 : ℚ) : ℝ)) = 149 + t / 86400 := by
    push_cast; norm_num
  have e3 : (Fn.cos.val = Real.cos) := rfl
  have e4 : (Fn.sin.val = Real.sin) := rfl
  have e5 : (Fn.arctan.val = Real.arctan) := rfl
  have m1 : ¬ ((2 : ℚ) = 1) := by norm_num
  have m2 : ¬ ((3 : ℚ) = 1) := by norm_num
  rw [e1, hf, ← cos_hourAngle t k]
  simp only [if_neg m1, if_neg m2, if_true, Ex.val, e3, e4, e5]
  push_cast
  rw [hpi]
  have hθ : 2 * Real.pi * (150 - 1) / 365 = 2 * Real.pi * 149 / 365 := by norm_num
  rw [hθ]
  unfold declination equationOfTime
  simp only
  congr 2
  · congr 1
    ring
  · congr 2
    ring
  · congr 1
    ring

/-- `cosx` and `secx` before the photolysis part. -/
theorem solar_val (b : Backend) (hb : b ≠ .python) (T t r h : ℝ) (junk : Vals) :
    run (ambient b T t r h junk) (solarPart b) (nm "cosx") =
      (if sunHeight t ≤ 1e-30 then 0 else sunHeight t) ∧
    run (ambient b T t r h junk) (solarPart b) (nm "secx") =
      (if sunHeight t ≤ 1e-30 then 1e20 else 1 / sunHeight t) := by
  have hs := solar_of b hb
  unfold solarCheck at hs
  rw [Bool.and_eq_true, decide_eq_true_eq, decide_eq_true_eq] at hs
  have htt : ambient b T t r h junk (nm "ttime") = t := by
    have : nm "ttime" = b.var "ttime" := by cases b <;> decide
    rw [this, ambient_ttime]
  have hz : (zenithEx (wholeDays b)).val (ambient b T t r h junk) = sunHeight t := by
    cases b with
    | python => exact absurd rfl hb
    | numba =>
      rcases le_or_gt 0 (149 + t / 86400) with h0 | h0
      · exact zenith_val _ _ t htt (k := ⌊149 + t / 86400⌋) (by simp only [wholeDays, Fn.val, if_pos h0])
      · exact zenith_val _ _ t htt (k := ⌈149 + t / 86400⌉)
          (by simp only [wholeDays, Fn.val, if_neg (not_le.2 h0)])
    | fortran => exact zenith_val _ _ t htt (k := ⌊149 + t / 86400⌋) rfl
  have c1 := norm_val (ambient b T t r h junk) ((symRun [] (solarPart b)).get (nm "cosx"))
  have c2 := norm_val (ambient b T t r h junk) ((symRun [] (solarPart b)).get (nm "secx"))
  rw [hs.1, norm_val] at c1
  rw [hs.2, norm_val] at c2
  rw [run_eq_sym, run_eq_sym, ← c1, ← c2]
  simp only [Ex.val, hz]
  norm_num

/-- C47. In the numba and Fortran programs each entry of the photolysis table has the value of the
parameterisation for the height of the sun at the time of day: it is never negative, it is zero whenever
the sun is at or below the horizon, and positive when the sun is above it. -/
theorem C47_photolysis (b : Backend) (hb : b ≠ .python) (T t r h : ℝ) (junk : Vals)
    (k : Nat) (l m n : ℚ) (hr : (k, l, m, n) ∈ photolysisTable) :
    run (ambient b T t r h junk) (rateProgram b) (b.slot k) = photolysisRate t l m n ∧
    0 ≤ photolysisRate t l m n ∧
    (sunHeight t ≤ 0 → photolysisRate t l m n = 0) ∧
    (1e-30 < sunHeight t → 0 < photolysisRate t l m n) := by
  have htab : ∀ row ∈ photolysisTable, 0 < row.2.1 ∧ 0 < row.2.2.1 := by decide +kernel
  obtain ⟨hl, hm⟩ := htab _ hr
  have hl' : (0 : ℝ) < l := by exact_mod_cast hl
  have hm' : (0 : ℝ) < m := by exact_mod_cast hm
  have hpos : 1e-30 < sunHeight t → 0 < photolysisRate t l m n := by
    intro hd
    unfold photolysisRate
    rw [if_neg (not_le.2 hd)]
    have h0 : 0 < sunHeight t := lt_trans (by norm_num) hd
    exact mul_pos (mul_pos hl' (Real.rpow_pos_of_pos h0 _)) (Real.exp_pos _)
  have hzero : sunHeight t ≤ 1e-30 → photolysisRate t l m n = 0 := by
    intro hd; unfold photolysisRate; rw [if_pos hd]
  refine ⟨?_, ?_, fun hd => hzero (hd.trans (by norm_num)), hpos⟩
  · rw [slot_val b _ _ hr]
    obtain ⟨h1, h2⟩ := solar_val b hb T t r h junk
    rw [h1, h2]
    unfold photolysisRate
    by_cases hd : sunHeight t ≤ 1e-30
    · rw [if_pos hd, if_pos hd, if_pos hd, Real.zero_rpow (ne_of_gt hm'), mul_zero, zero_mul]
    · rw [if_neg hd, if_neg hd, if_neg hd]
      congr 2
      ring
  · rcases le_or_gt (sunHeight t) 1e-30 with hd | hd
    · rw [hzero hd]
    · exact le_of_lt (hpos hd)

/-- Slots outside the table keep the value they had before the call: the programs give them none. (The
Fortran array is local, so there the value is undefined.) -/
theorem C47_other_slots (b : Backend) (env : Vals) (k : Nat)
    (hk : k ∉ photolysisTable.map Prod.fst) : run env (rateProgram b) (b.slot k) = env (b.slot k) := by
  have h := facts_common b
  unfold commonFacts at h
  simp only [Bool.and_eq_true] at h
  have h1 := h.1.2
  unfold slotsCheck at h1
  rw [List.all_eq_true] at h1
  have hn : b.slot k ∉ (rateProgram b).flatMap Stmt.assigned := by
    intro hmem
    have h2 := h1 _ hmem
    rw [decide_eq_true_eq] at h2
    obtain ⟨k', hk', he⟩ := h2 rfl
    have : k = k' := Option.some.inj he
    exact hk (this ▸ hk')
  generalize rateProgram b = p at hn
  induction p generalizing env with
  | nil => rfl
  | cons s p ih =>
    rw [List.flatMap_cons, List.mem_append, not_or] at hn
    have h3 : s.run env (b.slot k) = env (b.slot k) := by
      cases s with
      | asg v e =>
        rw [Stmt.run, Function.update_of_ne]
        intro he
        exact hn.1 (by rw [Stmt.assigned, he]; exact List.mem_singleton_self _)
      | ifLe a c t e =>
        have h4 := hn.1
        rw [Stmt.assigned, List.map_append, List.mem_append, not_or] at h4
        rw [Stmt.run]
        split
        · rw [runAsgs_not_mem t _ h4.1]
        · rw [runAsgs_not_mem e _ h4.2]
    rw [← h3]
    exact ih (s.run env) hn.2

/-- Every photolysis rate is the same in the two programs. -/
theorem C48_same_photolysis (T t r h T' r' h' : ℝ) (junk junk' : Vals)
    (k : Nat) (l m n : ℚ) (hr : (k, l, m, n) ∈ photolysisTable) :
    run (ambient .numba T t r h junk) (rateProgram .numba) (Backend.numba.slot k) =
      run (ambient .fortran T' t r' h' junk') (rateProgram .fortran) (Backend.fortran.slot k) := by
  rw [(C47_photolysis .numba (by decide) T t r h junk k l m n hr).1,
    (C47_photolysis .fortran (by decide) T' t r' h' junk' k l m n hr).1]

/-! The plain Python writer (not used by the drivers) has its own solar position and no clamp. -/

/-- The height of the sun in the plain Python program: latitude 50, declination 23.79 degrees. -/
noncomputable def Spec.plainHeight (t : ℝ) : ℝ :=
  Real.cos ((1 + t / 43200) * Real.pi) * Real.cos (23.79 / (180 / Real.pi)) *
    Real.cos (50 / (180 / Real.pi)) + Real.sin (23.79 / (180 / Real.pi)) * Real.sin (50 / (180 / Real.pi))

theorem plainHeight_mem (t : ℝ) : -1 ≤ plainHeight t ∧ plainHeight t ≤ 1 := by
  unfold plainHeight
  generalize (1 + t / 43200) * Real.pi = a
  generalize 23.79 / (180 / Real.pi) = d
  generalize 50 / (180 / Real.pi) = l
  have h1 := Real.cos_le_one a
  have h2 := Real.neg_one_le_cos a
  have hd := Real.sin_sq_add_cos_sq d
  have hl := Real.sin_sq_add_cos_sq l
  have ha : (Real.cos a) ^ 2 ≤ 1 := by nlinarith
  have key : (Real.cos a * Real.cos d * Real.cos l + Real.sin d * Real.sin l) ^ 2 ≤ 1 := by
    have e1 : (Real.cos a * Real.cos d * Real.cos l + Real.sin d * Real.sin l) ^ 2 ≤
        ((Real.cos a * Real.cos d) ^ 2 + Real.sin d ^ 2) * (Real.cos l ^ 2 + Real.sin l ^ 2) := by
      nlinarith [sq_nonneg (Real.cos a * Real.cos d * Real.sin l - Real.sin d * Real.cos l)]
    have e2 : (Real.cos a * Real.cos d) ^ 2 ≤ Real.cos d ^ 2 := by
      rw [mul_pow]
      exact mul_le_of_le_one_left (sq_nonneg _) ha
    have e3 : Real.cos l ^ 2 + Real.sin l ^ 2 = 1 := by linarith
    rw [e3, mul_one] at e1
    linarith
  exact abs_le.1 ((sq_le_one_iff_abs_le_one _).1 key)

/-- In the plain Python program the first photolysis rate is a fractional power of a negative number
whenever the sun is below the horizon, so the program does not produce a number. -/
theorem C47_plain_python_undefined (T t r h : ℝ) (junk : Vals) (ht : plainHeight t < 0) :
    ¬ OkRun (ambient .python T t r h junk) (rateProgram .python) := by
  intro hok
  rw [parts] at hok
  have h1 := okRun_append _ _ _ hok
  have hp := facts_plain
  unfold plainCheck at hp
  rw [Bool.and_eq_true, decide_eq_true_eq, decide_eq_true_eq] at hp
  have htt : ambient .python T t r h junk (nm "ttime") = t := ambient_ttime .python T t r h junk
  have hv : run (ambient .python T t r h junk) (solarPart .python) (nm "cosx") = plainHeight t := by
    rw [run_eq_sym, ← norm_val, hp.1, norm_val]
    simp only [plainEx, Ex.val, htt]
    have e3 : (Fn.cos.val = Real.cos) := rfl
    have e4 : (Fn.sin.val = Real.sin) := rfl
    have e5 : (Fn.arctan.val = Real.arctan) := rfl
    have e6 : (Fn.arccos.val = Real.arccos) := rfl
    rw [e3, e4, e5, e6]
    push_cast
    rw [four_arctan_one]
    have hm := plainHeight_mem t
    unfold plainHeight at hm ⊢
    rw [Real.cos_arccos hm.1 hm.2]
  obtain ⟨p, hp2⟩ : ∃ p, ratePart .python =
      .asg (Backend.python.slot 1) (.mul (.mul (.num 6.073e-5) (.pow (.var (nm "cosx")) (.num 1.743)))
        (.call .exp (.mul (.mul (.neg (.num 1)) (.num 0.474)) (.var (nm "secx"))))) :: p := by
    cases hr : ratePart .python with
    | nil => rw [hr] at hp; simp at hp
    | cons s p => rw [hr] at hp; simp only [List.head?_cons, Option.some.injEq] at hp; exact ⟨p, by rw [hp.2]⟩
  rw [hp2] at h1
  unfold OkRun at h1
  obtain ⟨⟨⟨_, _, _, h3⟩, _⟩, _⟩ := h1
  simp only [Ex.val] at h3
  rw [hv] at h3
  rcases h3 with h3 | h3 | ⟨n, h3, _⟩
  · linarith
  · linarith [h3.1]
  · have h4 : (1743 : ℝ) = 1000 * n := by
      rw [← h3]; push_cast; norm_num
    have h5 : (1743 : ℤ) = 1000 * n := by exact_mod_cast h4
    omega

/-- At midnight the sun is below the horizon. -/
theorem plainHeight_midnight : plainHeight 0 < 0 := by
  unfold plainHeight
  have hpi := Real.pi_pos
  have e : Real.cos ((1 + 0 / 43200) * Real.pi) = -1 := by norm_num
  rw [e]
  have hc : 0 < Real.cos (23.79 / (180 / Real.pi) + 50 / (180 / Real.pi)) := by
    apply Real.cos_pos_of_mem_Ioo
    constructor
    · have : 0 ≤ 23.79 / (180 / Real.pi) + 50 / (180 / Real.pi) := by positivity
      linarith
    · have : 23.79 / (180 / Real.pi) + 50 / (180 / Real.pi) = 73.79 / 180 * Real.pi := by
        field_simp; norm_num
      rw [this]
      linarith
  rw [Real.cos_add] at hc
  linarith

example : ¬ OkRun (ambient .python 298.15 0 0 0 (fun _ => 0)) (rateProgram .python) :=
  C47_plain_python_undefined 298.15 0 0 0 (fun _ => 0) plainHeight_midnight

/-- A row of the table. -/
example : ((1 : Nat), (6.073e-5 : ℚ), (1.743 : ℚ), (0.474 : ℚ)) ∈ photolysisTable := by decide +kernel

end PyBox
