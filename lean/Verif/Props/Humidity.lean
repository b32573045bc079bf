import Verif.Props.YieldDriver
import Mathlib.Analysis.Complex.ExponentialBounds
import Mathlib.Analysis.Calculus.Deriv.MeanValue
import Mathlib.Analysis.SpecialFunctions.Log.Deriv

/-!
# C98: the humidity of the settings and the one the simulation works with

The drivers compute water vapour from a relative humidity with one formula for the saturation vapour
pressure (`/repo/Gas_simulation.py` 75-85 and the same lines of the other three drivers), the solver's
right-hand side uses another one (`/repo/Aerosol/f2py/ODE_solver.py` 103-105). Here the two are compared from
0 to 40 degrees Celsius.
-/

namespace PyBox

open Spec Aerosol Rl

namespace Spec

/-- The saturation vapour pressure of water by the formula of Magnus, Pa, with the constants of the drivers. -/
noncomputable def magnus (T : ℝ) : ℝ := 610.78 * Real.exp ((T - 273.15) / (T - 34.85) * 17.2694)

/-- Molecules per cubic centimetre of an ideal gas at pressure `p` (Pa). -/
noncomputable def idealGas (p T : ℝ) : ℝ := p * 602214090000000000000000 / (8.314 * T) * 0.000001

end Spec

/-! ### The logarithm of the ratio of the two formulas -/

/-- `log (magnus T / satVapWater T)`. -/
noncomputable def logRatio (T : ℝ) : ℝ :=
  Real.log 610.78 + (T - 273.15) / (T - 34.85) * 17.2694 - (-5800.2206 / T + 1.3914993 - 0.048640239 * T
    + 0.000041764768 * T ^ 2 - 0.000000014452093 * T ^ 3 + 6.5459673 * Real.log T)

theorem ratio_eq (T : ℝ) : magnus T / satVapWater T = Real.exp (logRatio T) := by
  unfold magnus satVapWater logRatio
  rw [Real.exp_sub, Real.exp_add (Real.log 610.78), Real.exp_log (by norm_num)]

/-- Its derivative. -/
noncomputable def ratioSlope (T : ℝ) : ℝ :=
  17.2694 * 238.3 / (T - 34.85) ^ 2 - (5800.2206 / T ^ 2 - 0.048640239 + 2 * 0.000041764768 * T
    - 3 * 0.000000014452093 * T ^ 2 + 6.5459673 / T)

theorem logRatio_deriv {T : ℝ} (hT : 273.15 ≤ T) : HasDerivAt logRatio (ratioSlope T) T := by
  have h0 : T ≠ 0 := by intro h; rw [h] at hT; norm_num at hT
  have h1 : T - 34.85 ≠ 0 := by intro h; have : T = 34.85 := by linarith
                                rw [this] at hT; norm_num at hT
  have hid := hasDerivAt_id' T
  have e1 : HasDerivAt (fun T : ℝ => (T - 273.15) / (T - 34.85) * 17.2694) _ T :=
    (((hid.sub_const 273.15).div (hid.sub_const 34.85) h1).mul_const 17.2694)
  have e2 : HasDerivAt (fun T : ℝ => -5800.2206 / T) _ T := (hasDerivAt_const T (-5800.2206 : ℝ)).div hid h0
  have e3 : HasDerivAt (fun T : ℝ => 0.048640239 * T) _ T := hid.const_mul 0.048640239
  have e4 : HasDerivAt (fun T : ℝ => 0.000041764768 * T ^ 2) _ T := (hasDerivAt_pow 2 T).const_mul 0.000041764768
  have e5 : HasDerivAt (fun T : ℝ => 0.000000014452093 * T ^ 3) _ T :=
    (hasDerivAt_pow 3 T).const_mul 0.000000014452093
  have e6 : HasDerivAt (fun T : ℝ => 6.5459673 * Real.log T) _ T := (Real.hasDerivAt_log h0).const_mul 6.5459673
  have h := (e1.const_add (Real.log 610.78)).sub
    (((((e2.add_const 1.3914993).sub e3).add e4).sub e5).add e6)
  refine (h.congr_deriv ?_)
  unfold ratioSlope
  simp
  field_simp
  ring

theorem slope_poly {T : ℝ} (hT : 273.15 ≤ T) (c : ℝ) : (ratioSlope T + c) * (T ^ 2 * (T - 34.85) ^ 2) =
    17.2694 * 238.3 * T ^ 2 + (-5800.2206 + 0.048640239 * T ^ 2 - 2 * 0.000041764768 * T ^ 3
      + 3 * 0.000000014452093 * T ^ 4 - 6.5459673 * T) * (T - 34.85) ^ 2 + c * (T ^ 2 * (T - 34.85) ^ 2) := by
  have h0 : T ≠ 0 := by intro h; rw [h] at hT; norm_num at hT
  have h1 : T - 34.85 ≠ 0 := by intro h; have : T = 34.85 := by linarith
                                rw [this] at hT; norm_num at hT
  unfold ratioSlope
  field_simp
  ring

/-- From 0 to 40 degrees the ratio falls, by at most 0.03 % per degree. -/
theorem slope_bounds {T : ℝ} (h1 : 273.15 ≤ T) (h2 : T ≤ 313.15) :
    ratioSlope T ≤ 0 ∧ 0 ≤ ratioSlope T + 0.0003 := by
  have hx : 0 ≤ T - 273.15 := by linarith
  have hy : 0 ≤ 313.15 - T := by linarith
  have hp : 0 < T ^ 2 * (T - 34.85) ^ 2 := by
    have : 0 < T - 34.85 := by linarith
    have : 0 < T := by linarith
    positivity
  constructor
  · have h := slope_poly h1 0
    have e : 17.2694 * 238.3 * T ^ 2 + (-5800.2206 + 0.048640239 * T ^ 2 - 2 * 0.000041764768 * T ^ 3
      + 3 * 0.000000014452093 * T ^ 4 - 6.5459673 * T) * (T - 34.85) ^ 2 + 0 * (T ^ 2 * (T - 34.85) ^ 2) =
      -(11940950219289274577766156809/65536000000000000000000000000000 * ((T - 273.15) ^ 0 * (313.15 - T) ^ 6) +
      54651520244706746144434228427/32768000000000000000000000000000 * ((T - 273.15) ^ 1 * (313.15 - T) ^ 5) +
      68407966806442578735258978427/13107200000000000000000000000000 * ((T - 273.15) ^ 2 * (313.15 - T) ^ 4) +
      25563227606249611526402106809/3276800000000000000000000000000 * ((T - 273.15) ^ 3 * (313.15 - T) ^ 3) +
      79218433265266611292429854427/13107200000000000000000000000000 * ((T - 273.15) ^ 4 * (313.15 - T) ^ 2) +
      75852949029368620473803180427/32768000000000000000000000000000 * ((T - 273.15) ^ 5 * (313.15 - T) ^ 1) +
      22197698698207195048306632809/65536000000000000000000000000000 * ((T - 273.15) ^ 6 * (313.15 - T) ^ 0)) := by ring
    rw [e] at h
    have : 0 ≤ 11940950219289274577766156809/65536000000000000000000000000000 * ((T - 273.15) ^ 0 * (313.15 - T) ^ 6) +
      54651520244706746144434228427/32768000000000000000000000000000 * ((T - 273.15) ^ 1 * (313.15 - T) ^ 5) +
      68407966806442578735258978427/13107200000000000000000000000000 * ((T - 273.15) ^ 2 * (313.15 - T) ^ 4) +
      25563227606249611526402106809/3276800000000000000000000000000 * ((T - 273.15) ^ 3 * (313.15 - T) ^ 3) +
      79218433265266611292429854427/13107200000000000000000000000000 * ((T - 273.15) ^ 4 * (313.15 - T) ^ 2) +
      75852949029368620473803180427/32768000000000000000000000000000 * ((T - 273.15) ^ 5 * (313.15 - T) ^ 1) +
      22197698698207195048306632809/65536000000000000000000000000000 * ((T - 273.15) ^ 6 * (313.15 - T) ^ 0) := by positivity
    by_contra hc
    push Not at hc
    nlinarith [mul_pos hc hp]
  · have h := slope_poly h1 0.0003
    have e : 17.2694 * 238.3 * T ^ 2 + (-5800.2206 + 0.048640239 * T ^ 2 - 2 * 0.000041764768 * T ^ 3
      + 3 * 0.000000014452093 * T ^ 4 - 6.5459673 * T) * (T - 34.85) ^ 2 + 0.0003 * (T ^ 2 * (T - 34.85) ^ 2) =
      8396276574979645422233843191/65536000000000000000000000000000 * ((T - 273.15) ^ 0 * (313.15 - T) ^ 6) +
      12752055530468013855565771573/32768000000000000000000000000000 * ((T - 273.15) ^ 1 * (313.15 - T) ^ 5) +
      5989254467980181264741021573/13107200000000000000000000000000 * ((T - 273.15) ^ 2 * (313.15 - T) ^ 4) +
      1783356431267308473597893191/3276800000000000000000000000000 * ((T - 273.15) ^ 3 * (313.15 - T) ^ 3) +
      11162327856292148707570145573/13107200000000000000000000000000 * ((T - 273.15) ^ 4 * (313.15 - T) ^ 2) +
      23619349704078139526196819573/32768000000000000000000000000000 * ((T - 273.15) ^ 5 * (313.15 - T) ^ 1) +
      14258592295197724951693367191/65536000000000000000000000000000 * ((T - 273.15) ^ 6 * (313.15 - T) ^ 0) := by ring
    rw [e] at h
    have : 0 ≤ 8396276574979645422233843191/65536000000000000000000000000000 * ((T - 273.15) ^ 0 * (313.15 - T) ^ 6) +
      12752055530468013855565771573/32768000000000000000000000000000 * ((T - 273.15) ^ 1 * (313.15 - T) ^ 5) +
      5989254467980181264741021573/13107200000000000000000000000000 * ((T - 273.15) ^ 2 * (313.15 - T) ^ 4) +
      1783356431267308473597893191/3276800000000000000000000000000 * ((T - 273.15) ^ 3 * (313.15 - T) ^ 3) +
      11162327856292148707570145573/13107200000000000000000000000000 * ((T - 273.15) ^ 4 * (313.15 - T) ^ 2) +
      23619349704078139526196819573/32768000000000000000000000000000 * ((T - 273.15) ^ 5 * (313.15 - T) ^ 1) +
      14258592295197724951693367191/65536000000000000000000000000000 * ((T - 273.15) ^ 6 * (313.15 - T) ^ 0) := by positivity
    by_contra hc
    push Not at hc
    nlinarith [mul_pos_of_neg_of_neg hc (neg_neg_of_pos hp)]

/-! ### The value at the freezing point -/

theorem exp_cubic {c : ℝ} (h0 : 0 ≤ c) (h1 : c ≤ 1) :
    1 + c + c ^ 2 / 2 + c ^ 3 / 6 ≤ Real.exp c ∧
      Real.exp c ≤ 1 + c + c ^ 2 / 2 + c ^ 3 / 6 + c ^ 4 * 5 / 96 := by
  constructor
  · have := Real.sum_le_exp_of_nonneg h0 4
    simp [Finset.sum_range_succ, Nat.factorial] at this
    linarith
  · have := Real.exp_bound' h0 h1 (n := 4) (by norm_num)
    simp [Finset.sum_range_succ, Nat.factorial] at this
    norm_num at this
    linarith

theorem log_bounds {a b x y : ℝ} {n : ℕ} (h0 : 0 ≤ a) (ha1 : a ≤ 1) (hb : 0 ≤ b) (hb1 : b ≤ 1) (hx : x = 2 ^ n * y)
    (hl : 1 + a + a ^ 2 / 2 + a ^ 3 / 6 + a ^ 4 * 5 / 96 ≤ y) (hu : y ≤ 1 + b + b ^ 2 / 2 + b ^ 3 / 6) :
    n * Real.log 2 + a ≤ Real.log x ∧ Real.log x ≤ n * Real.log 2 + b := by
  have hy : 0 < y := lt_of_lt_of_le (by positivity) hl
  rw [hx, Real.log_mul (by positivity) hy.ne', Real.log_pow]
  have h1 : a ≤ Real.log y := by
    rw [Real.le_log_iff_exp_le hy]; exact (exp_cubic h0 ha1).2.trans hl
  have h2 : Real.log y ≤ b := by
    rw [Real.log_le_iff_le_exp hy]; exact hu.trans (exp_cubic hb hb1).1
  constructor <;> linarith

theorem ratio_freezing : -0.0015 ≤ logRatio 273.15 ∧ logRatio 273.15 ≤ 0 := by
  obtain ⟨l1, u1⟩ := log_bounds (a := 0.1762) (b := 0.1765) (x := 610.78) (y := 610.78 / 512) (n := 9)
    (by norm_num) (by norm_num) (by norm_num) (by norm_num) (by norm_num) (by norm_num) (by norm_num)
  obtain ⟨l2, u2⟩ := log_bounds (a := 0.06483) (b := 0.06485) (x := 273.15) (y := 273.15 / 256) (n := 8)
    (by norm_num) (by norm_num) (by norm_num) (by norm_num) (by norm_num) (by norm_num) (by norm_num)
  have t1 := Real.log_two_gt_d9
  have t2 := Real.log_two_lt_d9
  push_cast at l1 u1 l2 u2
  unfold logRatio
  norm_num at l1 u1 l2 u2 t1 t2 ⊢
  constructor <;> linarith

theorem logRatio_bounds {T : ℝ} (h1 : 273.15 ≤ T) (h2 : T ≤ 313.15) : -0.0135 ≤ logRatio T ∧ logRatio T ≤ 0 := by
  have hcont : ContinuousOn logRatio (Set.Icc 273.15 313.15) := fun x hx =>
    (logRatio_deriv hx.1).continuousAt.continuousWithinAt
  have hint : ∀ x ∈ interior (Set.Icc (273.15 : ℝ) 313.15), 273.15 ≤ x ∧ x ≤ 313.15 := fun x hx =>
    Set.mem_Icc.1 (interior_subset hx)
  have hmem : T ∈ Set.Icc (273.15 : ℝ) 313.15 := ⟨h1, h2⟩
  have hmem0 : (273.15 : ℝ) ∈ Set.Icc (273.15 : ℝ) 313.15 := by constructor <;> norm_num
  have hdown : AntitoneOn logRatio (Set.Icc 273.15 313.15) := by
    refine antitoneOn_of_deriv_nonpos (convex_Icc _ _) hcont (fun x hx => ?_) (fun x hx => ?_)
    · exact (logRatio_deriv (hint x hx).1).differentiableAt.differentiableWithinAt
    · rw [(logRatio_deriv (hint x hx).1).deriv]; exact (slope_bounds (hint x hx).1 (hint x hx).2).1
  have hup : MonotoneOn (fun x => logRatio x + 0.0003 * x) (Set.Icc 273.15 313.15) := by
    have hd : ∀ x, 273.15 ≤ x → HasDerivAt (fun x => logRatio x + 0.0003 * x) (ratioSlope x + 0.0003) x := by
      intro x hx
      have := (logRatio_deriv hx).add ((hasDerivAt_id' x).const_mul 0.0003)
      rwa [mul_one] at this
    refine monotoneOn_of_deriv_nonneg (convex_Icc _ _)
      (fun x hx => (hd x hx.1).continuousAt.continuousWithinAt) (fun x hx => ?_) (fun x hx => ?_)
    · exact (hd x (hint x hx).1).differentiableAt.differentiableWithinAt
    · rw [(hd x (hint x hx).1).deriv]; exact (slope_bounds (hint x hx).1 (hint x hx).2).2
  have a1 := hdown hmem0 hmem h1
  have a2 := hup hmem0 hmem h1
  have a3 := ratio_freezing
  dsimp only at a2
  constructor
  · norm_num at a2 a3 ⊢; linarith
  · linarith [a3.2]

/-- The two formulas agree to 1.35 %; the drivers' is the lower one. -/
theorem C98_formulas {T : ℝ} (h1 : 273.15 ≤ T) (h2 : T ≤ 313.15) :
    0.9865 * satVapWater T ≤ magnus T ∧ magnus T ≤ satVapWater T := by
  have hs : 0 < satVapWater T := Real.exp_pos _
  have h := logRatio_bounds h1 h2
  have e := ratio_eq T
  constructor
  · rw [← le_div_iff₀ hs, e]
    have := Real.add_one_le_exp (logRatio T)
    linarith [h.1]
  · rw [← div_le_one hs, e]
    exact Real.exp_le_one_iff.2 h.2

/-! ### C98 -/

/-- The vapour the drivers compute for a relative humidity is, to 1.4 %, that of an ideal gas at this fraction of
the saturation pressure the solver uses. -/
theorem C98_vapour {T rh : ℝ} (h1 : 273.15 ≤ T) (h2 : T ≤ 313.15) (hrh : 0 ≤ rh) :
    ∃ w, waterVapour T rh = .ok w ∧
      |w - idealGas (rh * satVapWater T) T| ≤ 0.014 * idealGas (rh * satVapWater T) T := by
  have hs : 0 < satVapWater T := Real.exp_pos _
  have hT : 0 < T := by linarith
  obtain ⟨l, u⟩ := C98_formulas h1 h2
  unfold waterVapour
  dsimp only
  rw [if_neg (by rintro (h | h) <;> norm_num at h h1 h2 <;> linarith)]
  refine ⟨_, rfl, ?_⟩
  have e : 0.002166 * (rh * (610.78 * Real.exp ((T - 273.15) / (T - 273.15 + 238.3) * 17.2694)) /
      (T - 273.15 + 273.16)) * 0.000001 * (1 / 0.018) * 602214090000000000000000 =
      idealGas (rh * magnus T) T * (0.002166 / 0.018 * 8.314) * (T / (T + 0.01)) := by
    rw [show T - 273.15 + 238.3 = T - 34.85 by ring, show T - 273.15 + 273.16 = T + 0.01 by ring]
    unfold idealGas magnus
    have : T + 0.01 ≠ 0 := by positivity
    field_simp
  rw [e]
  have hq1 : T / (T + 0.01) ≤ 1 := by rw [div_le_one (by positivity)]; linarith
  have hq2 : 0.9999 ≤ T / (T + 0.01) := by rw [le_div_iff₀ (by positivity)]; linarith
  have i0 : 0 ≤ idealGas (rh * satVapWater T) T := by unfold idealGas; positivity
  have i1 : idealGas (rh * magnus T) T ≤ idealGas (rh * satVapWater T) T := by
    unfold idealGas; gcongr
  have i2 : 0.9865 * idealGas (rh * satVapWater T) T ≤ idealGas (rh * magnus T) T := by
    have : 0.9865 * idealGas (rh * satVapWater T) T = idealGas (rh * (0.9865 * satVapWater T)) T := by
      unfold idealGas; ring
    rw [this]; unfold idealGas; gcongr
  set p := idealGas (rh * satVapWater T) T
  set q := idealGas (rh * magnus T) T
  have hq0 : 0 ≤ q := le_trans (by positivity) i2
  have b1 : q * (0.002166 / 0.018 * 8.314) * (T / (T + 0.01)) ≤ q * (0.002166 / 0.018 * 8.314) :=
    mul_le_of_le_one_right (by positivity) hq1
  have b2 : q * (0.002166 / 0.018 * 8.314) * 0.9999 ≤ q * (0.002166 / 0.018 * 8.314) * (T / (T + 0.01)) :=
    mul_le_mul_of_nonneg_left hq2 (by positivity)
  set z := q * (0.002166 / 0.018 * 8.314) * (T / (T + 0.01))
  rw [abs_le]
  norm_num at *
  constructor <;> linarith

section

variable {O : Type} {s : Settings} {text : Str} {m : Mechanism} {smiles : Dict Str Str} {pybel : Dict Str O}
  {props : O → PureProps}

/-- The relative humidity reported for the first state of a simulation with particles is that of the settings, to
1.4 % of it. -/
theorem C98_reported (h : extractMechanism text = .ok m) (hs : Structures smiles pybel) (hg : GoodSettings s)
    (hl : GoodLibrary props) (hn : KnownNames s m) (hna : s.na = 602214090000000000000000)
    (h1 : 273.15 ≤ s.temp) (h2 : s.temp ≤ 313.15) {P : Prepared}
    (hP : prepareRun s m smiles pybel props = .ok (some P)) :
    |reportedRH P.layout P.const (fun i => P.y0.getD i 0) - s.rh| ≤ 0.014 * s.rh := by
  rw [C76_reported h hs hg hl hn hP, hna]
  have hsat : 0 < satVapWater s.temp := Real.exp_pos _
  obtain ⟨l, u⟩ := C98_formulas h1 h2
  have hr := hg.rh
  have e : 610.78 * Real.exp ((s.temp - 273.15) / (s.temp - 34.85) * 17.2694) / satVapWater s.temp =
    magnus s.temp / satVapWater s.temp := rfl
  rw [e]
  have l' : 0.9865 ≤ magnus s.temp / satVapWater s.temp := by rwa [le_div_iff₀ hsat]
  have u' : magnus s.temp / satVapWater s.temp ≤ 1 := by rwa [div_le_one hsat]
  have hq1 : s.temp / (s.temp + 0.01) ≤ 1 := by rw [div_le_one (by linarith)]; linarith
  have hq2 : 0.9999 ≤ s.temp / (s.temp + 0.01) := by rw [le_div_iff₀ (by linarith)]; linarith
  set x := magnus s.temp / satVapWater s.temp
  set y := s.temp / (s.temp + 0.01)
  have hxy1 : x * y ≤ 1 := mul_le_one₀ u' (by linarith) hq1
  have hxy2 : 0.9865 * 0.9999 ≤ x * y := mul_le_mul l' hq2 (by norm_num) (by linarith)
  have e2 : s.rh * (602214090000000000000000 / 602214090000000000000000) * x * y *
      (0.002166 / 0.018 * 8.314 / (0.00000986923 * 101325)) =
      s.rh * (x * y * (0.002166 / 0.018 * 8.314 / (0.00000986923 * 101325))) := by
    rw [div_self (by norm_num)]; ring
  rw [e2]
  have c1 : x * y * (0.002166 / 0.018 * 8.314 / (0.00000986923 * 101325)) - 1 ≤ 0.014 := by
    norm_num at *; linarith
  have c2 : -0.014 ≤ x * y * (0.002166 / 0.018 * 8.314 / (0.00000986923 * 101325)) - 1 := by
    norm_num at *; linarith
  rw [show s.rh * (x * y * (0.002166 / 0.018 * 8.314 / (0.00000986923 * 101325))) - s.rh =
    (x * y * (0.002166 / 0.018 * 8.314 / (0.00000986923 * 101325)) - 1) * s.rh by ring, abs_mul,
    abs_of_nonneg hr]
  exact mul_le_mul_of_nonneg_right (abs_le.2 ⟨c2, c1⟩) hr

/-- The driver's own settings, 288.15 K and half saturation, with the mechanism and library of `radicalSettings`. -/
example : ∃ P, prepareRun radicalSettings ⟨build radicalReactions, 2⟩ radicalSmiles radicalPybel radicalProps =
      .ok (some P) ∧ |reportedRH P.layout P.const (fun i => P.y0.getD i 0) - 0.5| ≤ 0.007 := by
  obtain ⟨P, hP, -⟩ := radical_prepared
  refine ⟨P, hP, ?_⟩
  have h := C98_reported (props := radicalProps) radical_parses radical_structures radicalSettings_good
    (fun _ => by norm_num [radicalProps]) radicalSettings_known rfl
    (by norm_num [radicalSettings, driverSettings]) (by norm_num [radicalSettings, driverSettings]) hP
  rw [show radicalSettings.rh = 0.5 from rfl] at h
  norm_num at h ⊢
  exact h

end

end PyBox
