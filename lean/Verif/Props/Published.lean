import Verif.Rate.Published
import Verif.Props.RateFiles
import Mathlib.Analysis.Complex.ExponentialBounds
import Mathlib.Analysis.SpecialFunctions.Pow.Real

/-!
# C97: the generic rate coefficients follow their formulas

The laws that reaction kinetics uses for these coefficients, on the reals; what the three generated rate
files compute is compared with them for every temperature and water concentration. One of the 39
coefficients does not follow its law.
-/

namespace PyBox
open Rl

namespace Spec

/-- Molecules of air per cubic centimetre. -/
noncomputable def airDensity : ℝ := 2.55e19

/-- Those of oxygen. -/
noncomputable def oxygenDensity : ℝ := 0.2095 * airDensity

/-- `A (T/300)^n exp(E/T)`. -/
noncomputable def arrhenius (k : Arrhenius) (T : ℝ) : ℝ :=
  k.A * (T / 300) ^ (k.n : ℝ) * Real.exp (k.E / T)

/-- The decimal logarithm. -/
noncomputable def log10 (x : ℝ) : ℝ := Real.log x / Real.log 10

/-- Lindemann and Hinshelwood: the limits `k0`, `ki` joined without broadening. -/
noncomputable def lindemann (k0 ki : ℝ) : ℝ := k0 * ki / (k0 + ki)

/-- The broadening of the falloff curve: `log10 F = log10 Fc / (1 + (log10(k0/ki)/N)^2)` with
`N = 0.75 - 1.27 log10 Fc`. -/
noncomputable def broadening (k0 ki fc : ℝ) : ℝ :=
  10 ^ (log10 fc / (1 + (log10 (k0 / ki) / (0.75 - 1.27 * log10 fc)) ^ 2))

/-- The falloff law of Troe. -/
noncomputable def troe (k0 ki fc : ℝ) : ℝ := lindemann k0 ki * broadening k0 ki fc

/-- The value of a law at temperature `T` and water concentration `h`. -/
noncomputable def lawAt (T h : ℝ) : Formula → ℝ
  | .thermal k => arrhenius k T
  | .oxygen k => arrhenius k T * oxygenDensity
  | .falloff low high fc => troe (arrhenius low T * airDensity) (arrhenius high T) fc
  | .falloffVar low high w a b => troe (arrhenius low T * airDensity) (arrhenius high T)
      (w * Real.exp (-a / T) + Real.exp (-T / b))
  | .pressure a b => a * (1 + airDensity / b)
  | .water k => 1 + arrhenius k T * h
  | .sum k1 k3 k4 => arrhenius k1 T + arrhenius k3 T * airDensity /
      (1 + arrhenius k3 T * airDensity / arrhenius k4 T)
  | .saturating a b => arrhenius a T * oxygenDensity / (1 + arrhenius b T * oxygenDensity)
  | .air q => q * airDensity

/-- Decomposition of peroxypropionyl nitrate: the limits. -/
noncomputable def ppnLow (T : ℝ) : ℝ := arrhenius ⟨1.7e-3, 0, -11280⟩ T * airDensity
noncomputable def ppnHigh (T : ℝ) : ℝ := arrhenius ⟨8.3e16, 0, -13940⟩ T

end Spec

open Spec

/-! ### The expressions have the values of the laws -/

section
variable (T h : ℝ)

local notation "env" => ambient Backend.fortran T 0 0 h (fun _ => 0)

theorem tempEx_val : tempEx.val env = T := ambient_temp .fortran T 0 0 h _

theorem waterEx_val : waterEx.val env = h := ambient_H2O .fortran T 0 0 h _

theorem airEx_val : airEx.val env = airDensity := by
  unfold airEx airDensity Ex.val; norm_num

theorem oxygenEx_val : oxygenEx.val env = oxygenDensity := by
  have := airEx_val T h
  unfold oxygenEx oxygenDensity
  rw [Ex.val, this, Ex.val]; norm_num

theorem arrhenius_ex_val (k : Arrhenius) : k.ex.val env = arrhenius k T := by
  have ht := tempEx_val T h
  unfold Arrhenius.ex arrhenius
  by_cases hn : k.n = 0 <;> by_cases hE : k.E = 0 <;> simp [hn, hE, Ex.val, Fn.val, ht]

theorem troeEx_val (a b c : Ex) : (troeEx a b c).val env = troe (a.val env) (b.val env) (c.val env) := by
  unfold troeEx log10Ex troe lindemann broadening log10
  simp only [Ex.val, Fn.val]
  norm_num
  ring

theorem formula_val (F : Formula) : F.ex.val env = lawAt T h F := by
  have ht := tempEx_val T h
  have hw := waterEx_val T h
  have ha := airEx_val T h
  have ho := oxygenEx_val T h
  have hk := arrhenius_ex_val T h
  cases F <;> simp [Formula.ex, lawAt, Ex.val, Fn.val, ht, hw, ha, ho, hk, troeEx_val]

theorem ppnEx_val : ppnEx.val env = lindemann (ppnLow T) (ppnHigh T) * 0.36 := by
  have ha := airEx_val T h
  have hk := arrhenius_ex_val T h
  unfold ppnEx lindemann ppnLow ppnHigh
  simp only [Ex.val, ha, hk]
  norm_num
  ring

end

/-! ### C97 -/

theorem published_of (s : String) (F : Formula) (hs : (s, F) ∈ published) :
    coefficientOf .numba s = norm (if s = "KBPPN" then ppnEx else F.ex) := by
  have h := facts_published
  unfold publishedCheck at h
  rw [List.all_eq_true] at h
  have := h _ hs
  rwa [decide_eq_true_eq] at this

theorem published_mem (s : String) (F : Formula) (hs : (s, F) ∈ published) : s ∈ coefficientNames := by
  rw [← published_names]; exact List.mem_map.2 ⟨_, hs, rfl⟩

theorem KBPPN_law (F : Formula) (hs : ("KBPPN", F) ∈ published) :
    F = .falloff ⟨1.7e-3, 0, -11280⟩ ⟨8.3e16, 0, -13940⟩ 0.36 := by
  unfold published at hs
  simpa using hs

/-- Every generic coefficient has the value of its law, after each of the generated programs. -/
def C97_Statement : Prop :=
  ∀ (b : Backend) (T t r h : ℝ) (junk : Vals), 0 < T → 0 ≤ h → ∀ (s : String) (F : Formula),
    (s, F) ∈ published → run (ambient b T t r h junk) (rateProgram b) (b.var s) = lawAt T h F

/-- All but `KBPPN` do; for every temperature. Missing for the full statement: `KBPPN`, whose value is in
`C97_KBPPN`. -/
theorem C97_partial (b : Backend) (T t r h : ℝ) (junk : Vals) (s : String) (F : Formula)
    (hs : (s, F) ∈ published) (hne : s ≠ "KBPPN") :
    run (ambient b T t r h junk) (rateProgram b) (b.var s) = lawAt T h F := by
  have hm := published_mem s F hs
  rw [coefficient_val b T t r h junk s hm, agree_of b .numba s hm, published_of s F hs, norm_val,
    if_neg hne, formula_val]

/-- `KBPPN` is the curve without broadening times the constant 0.36: the factor computed from that constant
in the line before is not used. -/
theorem C97_KBPPN (b : Backend) (T t r h : ℝ) (junk : Vals) :
    run (ambient b T t r h junk) (rateProgram b) (b.var "KBPPN") =
      lindemann (ppnLow T) (ppnHigh T) * 0.36 := by
  have hs : ("KBPPN", Formula.falloff ⟨1.7e-3, 0, -11280⟩ ⟨8.3e16, 0, -13940⟩ 0.36) ∈ published := by
    unfold published; simp
  have hm := published_mem _ _ hs
  rw [coefficient_val b T t r h junk _ hm, agree_of b .numba _ hm, published_of _ _ hs, norm_val,
    if_pos rfl, ppnEx_val]

/-! ### The falloff law -/

theorem arrhenius_pos (k : Arrhenius) (hk : 0 < k.A) (T : ℝ) (hT : 0 < T) : 0 < arrhenius k T := by
  have : (0 : ℝ) < k.A := by exact_mod_cast hk
  unfold arrhenius; positivity

theorem log10_neg {x : ℝ} (h0 : 0 < x) (h1 : x < 1) : log10 x < 0 :=
  div_neg_of_neg_of_pos (Real.log_neg h0 h1) (Real.log_pos (by norm_num))

theorem ten_pow_log10 {x : ℝ} (h0 : 0 < x) : (10 : ℝ) ^ log10 x = x := by
  have h10 : Real.log 10 ≠ 0 := (Real.log_pos (by norm_num)).ne'
  rw [Real.rpow_def_of_pos (by norm_num), log10, mul_div_cancel₀ _ h10, Real.exp_log h0]

theorem broadening_lt_one (k0 ki fc : ℝ) (h0 : 0 < fc) (h1 : fc < 1) : broadening k0 ki fc < 1 := by
  unfold broadening
  refine Real.rpow_lt_one_of_one_lt_of_neg (by norm_num) (div_neg_of_neg_of_pos (log10_neg h0 h1) ?_)
  positivity

theorem le_broadening (k0 ki fc : ℝ) (h0 : 0 < fc) (h1 : fc < 1) : fc ≤ broadening k0 ki fc := by
  conv_lhs => rw [← ten_pow_log10 h0]
  unfold broadening
  refine Real.rpow_le_rpow_of_exponent_le (by norm_num) ?_
  rw [le_div_iff₀ (by positivity)]
  have := log10_neg h0 h1
  nlinarith [sq_nonneg (log10 (k0 / ki) / (0.75 - 1.27 * log10 fc))]

theorem lindemann_lt (k0 ki : ℝ) (h0 : 0 < k0) (hi : 0 < ki) :
    lindemann k0 ki < k0 ∧ lindemann k0 ki < ki := by
  unfold lindemann
  constructor <;> rw [div_lt_iff₀ (by positivity)] <;> nlinarith [mul_pos h0 h0, mul_pos hi hi]

/-- The coefficients with a constant broadening factor, `KBPPN` among them, lie below both limits and above
the curve without broadening times the factor. -/
theorem C97_limits (b : Backend) (T t r h : ℝ) (junk : Vals) (hT : 0 < T) (s : String)
    (low high : Arrhenius) (fc : ℚ) (hs : (s, .falloff low high fc) ∈ published) :
    let k := run (ambient b T t r h junk) (rateProgram b) (b.var s)
    let k0 := arrhenius low T * airDensity
    let ki := arrhenius high T
    lindemann k0 ki * fc ≤ k ∧ k < k0 ∧ k < ki := by
  intro k k0 ki
  have hq : 0 < low.A ∧ 0 < high.A ∧ 0 < fc ∧ fc < 1 := by
    have : published.all (fun r => match r.2 with
        | .falloff l g f => decide (0 < l.A ∧ 0 < g.A ∧ 0 < f ∧ f < 1)
        | _ => true) = true := by decide +kernel
    rw [List.all_eq_true] at this
    simpa using this _ hs
  have hf0 : (0 : ℝ) < fc := by exact_mod_cast hq.2.2.1
  have hf1 : (fc : ℝ) < 1 := by exact_mod_cast hq.2.2.2
  have h0 : 0 < k0 := mul_pos (arrhenius_pos low hq.1 T hT) (by unfold airDensity; norm_num)
  have hi : 0 < ki := arrhenius_pos high hq.2.1 T hT
  have hl : 0 < lindemann k0 ki := by unfold lindemann; positivity
  have hlt := lindemann_lt k0 ki h0 hi
  by_cases hn : s = "KBPPN"
  · subst hn
    have hF := KBPPN_law _ hs
    simp only [Formula.falloff.injEq] at hF
    obtain ⟨rfl, rfl, rfl⟩ := hF
    have hk : k = lindemann k0 ki * 0.36 := C97_KBPPN b T t r h junk
    refine ⟨le_of_eq ?_, ?_, ?_⟩
    · rw [hk]; norm_num
    · rw [hk]; linarith [hlt.1]
    · rw [hk]; linarith [hlt.2]
  · have hk : k = lindemann k0 ki * broadening k0 ki fc := C97_partial b T t r h junk s _ hs hn
    have hb := broadening_lt_one k0 ki fc hf0 hf1
    have hb' := le_broadening k0 ki fc hf0 hf1
    refine ⟨?_, ?_, ?_⟩
    · rw [hk]; exact mul_le_mul_of_nonneg_left hb' hl.le
    · rw [hk]; nlinarith [hlt.1]
    · rw [hk]; nlinarith [hlt.2]

example : ("KMT03", Formula.falloff ⟨3.6e-30, -4.1, 0⟩ ⟨1.9e-12, 0.2, 0⟩ 0.35) ∈ published := by
  unfold published; simp

/-! ### How far `KBPPN` is from its law -/

theorem ppn_pos (T : ℝ) : 0 < ppnLow T ∧ 0 < ppnHigh T := by
  unfold ppnLow ppnHigh arrhenius airDensity
  constructor <;> simp <;> positivity

theorem ppn_ratio (T : ℝ) : ppnLow T / ppnHigh T = 43350 / 83000 * Real.exp (2660 / T) := by
  unfold ppnLow ppnHigh arrhenius airDensity
  have h1 : Real.exp (2660 / T) = Real.exp (-11280 / T) / Real.exp (-13940 / T) := by
    rw [← Real.exp_sub]; congr 1; ring
  rw [h1]
  have := (Real.exp_pos (-13940 / T)).ne'
  push_cast
  rw [Real.rpow_zero]
  field_simp
  norm_num

/-- Up to 500 K the low-pressure limit is more than a hundred times the other. -/
theorem ppn_ratio_large (T : ℝ) (h0 : 0 < T) (h1 : T ≤ 500) : 100 ≤ ppnLow T / ppnHigh T := by
  rw [ppn_ratio]
  have h2 : (5.32 : ℝ) ≤ 2660 / T := by rw [le_div_iff₀ h0]; linarith
  have h3 : Real.exp 5.32 ≤ Real.exp (2660 / T) := Real.exp_le_exp.2 h2
  have h4 : Real.exp 5.32 = Real.exp 1 ^ 5 * Real.exp 0.32 := by
    rw [← Real.exp_nat_mul, ← Real.exp_add]; norm_num
  have h5 : (1.32 : ℝ) ≤ Real.exp 0.32 := by
    have := Real.add_one_le_exp (0.32 : ℝ); linarith
  have h6 : (2.7182818283 : ℝ) ^ 5 ≤ Real.exp 1 ^ 5 :=
    pow_le_pow_left₀ (by norm_num) Real.exp_one_gt_d9.le 5
  have h7 : (2.7182818283 : ℝ) ^ 5 * 1.32 ≤ Real.exp 5.32 := by
    rw [h4]; exact mul_le_mul h6 h5 (by norm_num) (by positivity)
  have h8 : (193 : ℝ) ≤ 2.7182818283 ^ 5 * 1.32 := by norm_num
  linarith

theorem log10_036 : (-0.45 : ℝ) ≤ log10 0.36 := by
  have h10 : 0 < Real.log 10 := Real.log_pos (by norm_num)
  have h : Real.log ((1 / 10 : ℝ) ^ 9) ≤ Real.log (0.36 ^ 20) :=
    Real.log_le_log (by norm_num) (by norm_num)
  rw [Real.log_pow, Real.log_pow, one_div, Real.log_inv] at h
  unfold log10
  rw [le_div_iff₀ h10]
  push_cast at h
  linarith

/-- The broadening that is left out: for temperatures up to 500 K the factor is over 0.72, not 0.36. -/
theorem ppn_broadening (T : ℝ) (h0 : 0 < T) (h1 : T ≤ 500) :
    0.72 < broadening (ppnLow T) (ppnHigh T) 0.36 := by
  have h10 : 0 < Real.log 10 := Real.log_pos (by norm_num)
  have hr := ppn_ratio_large T h0 h1
  have hl : 2 ≤ log10 (ppnLow T / ppnHigh T) := by
    unfold log10
    rw [le_div_iff₀ h10]
    have : Real.log ((10 : ℝ) ^ 2) ≤ Real.log (ppnLow T / ppnHigh T) :=
      Real.log_le_log (by norm_num) (by linarith)
    rw [Real.log_pow] at this
    exact_mod_cast this
  have hneg := log10_neg (x := 0.36) (by norm_num) (by norm_num)
  have hlow := log10_036
  set c := log10 0.36 with hc
  set g := log10 (ppnLow T / ppnHigh T)
  have hN0 : 0 < 0.75 - 1.27 * c := by linarith
  have hq : (1.51 : ℝ) ≤ g / (0.75 - 1.27 * c) := by
    rw [le_div_iff₀ hN0]; linarith
  have hsq : (9 / 4 : ℝ) ≤ (g / (0.75 - 1.27 * c)) ^ 2 := by nlinarith
  have hexp : c * (4 / 13) ≤ c / (1 + (g / (0.75 - 1.27 * c)) ^ 2) := by
    rw [le_div_iff₀ (by positivity)]
    nlinarith
  unfold broadening
  rw [← hc]
  refine lt_of_lt_of_le ?_ (Real.rpow_le_rpow_of_exponent_le (by norm_num) hexp)
  rw [Real.rpow_mul (by norm_num), hc, ten_pow_log10 (by norm_num)]
  refine lt_of_pow_lt_pow_left₀ 13 (by positivity) ?_
  rw [← Real.rpow_natCast (0.36 ^ (4 / 13 : ℝ)) 13, ← Real.rpow_mul (by norm_num)]
  norm_num

/-- `KBPPN` is less than half of what its law gives, at every temperature up to 500 K. -/
theorem C97_KBPPN_half (b : Backend) (T t r h : ℝ) (junk : Vals) (h0 : 0 < T) (h1 : T ≤ 500) :
    2 * run (ambient b T t r h junk) (rateProgram b) (b.var "KBPPN") <
      troe (ppnLow T) (ppnHigh T) 0.36 := by
  rw [C97_KBPPN]
  have hp := ppn_pos T
  have hl : 0 < lindemann (ppnLow T) (ppnHigh T) := by
    have h2 := hp.1; have h3 := hp.2
    unfold lindemann; positivity
  unfold troe
  nlinarith [ppn_broadening T h0 h1]

theorem C97_false : ¬ C97_Statement := by
  intro hst
  have hs : ("KBPPN", Formula.falloff ⟨1.7e-3, 0, -11280⟩ ⟨8.3e16, 0, -13940⟩ 0.36) ∈ published := by
    unfold published; simp
  have h1 := hst .python 298 0 0 0 (fun _ => 0) (by norm_num) le_rfl _ _ hs
  have h2 := C97_KBPPN_half .python 298 0 0 0 (fun _ => 0) (by norm_num) (by norm_num)
  have h3 : lawAt 298 0 (.falloff ⟨1.7e-3, 0, -11280⟩ ⟨8.3e16, 0, -13940⟩ 0.36) =
      troe (ppnLow 298) (ppnHigh 298) 0.36 := by
    rw [lawAt, ppnLow, ppnHigh]
    norm_num
  have h4 : 0 < troe (ppnLow 298) (ppnHigh 298) 0.36 := by
    have h2 := (ppn_pos 298).1; have h3 := (ppn_pos 298).2
    exact mul_pos (div_pos (mul_pos h2 h3) (add_pos h2 h3)) (Real.rpow_pos_of_pos (by norm_num) _)
  rw [h1, h3] at h2
  linarith

end PyBox
