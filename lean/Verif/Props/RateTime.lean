import Verif.Props.RateFiles
import Verif.Sim.Tame
import Mathlib.Analysis.SpecialFunctions.Trigonometric.Bounds

/-!
# C65: photolysis rates over the day
-/

namespace PyBox

open Rl Set Filter Topology

/-! ### Specification -/

namespace Spec

/-- Seconds after midnight at which the sun stands highest. -/
noncomputable def solarNoon : ℝ := 86400 * ((1 + 0.13 / 180) / 2 - equationOfTime / (2 * Real.pi))

/-- The value of a photolysis slot after a call of the generated function at time `t`. -/
noncomputable def slotValue (b : Backend) (T r h : ℝ) (junk : Vals) (k : Nat) (t : ℝ) : ℝ :=
  run (ambient b T t r h junk) (rateProgram b) (b.slot k)

end Spec

open Spec

attribute [local irreducible] rateProgram

/-! ### The height of the sun -/

theorem sunHeight_noon (s : ℝ) : sunHeight (solarNoon + s) =
    Real.cos (2 * Real.pi * s / 86400) * (Real.cos latitude * Real.cos declination)
      + Real.sin latitude * Real.sin declination := by
  unfold sunHeight
  rw [← cos_hourAngle (solarNoon + s) 149]
  congr 3
  unfold solarNoon
  have hpi := Real.pi_ne_zero
  push_cast
  field_simp
  ring

theorem sunHeight_continuous : Continuous sunHeight := by
  have : sunHeight = fun t => Real.cos (2 * Real.pi * (t - solarNoon) / 86400) *
      (Real.cos latitude * Real.cos declination) + Real.sin latitude * Real.sin declination := by
    funext t
    rw [← sunHeight_noon]
    congr 1
    ring
  rw [this]
  fun_prop

theorem sunHeight_day (t : ℝ) (k : ℤ) : sunHeight (t + 86400 * k) = sunHeight t := by
  unfold sunHeight hourAngle
  have : (t + 86400 * k) / 86400 = t / 86400 + k := by ring
  rw [this, Int.fract_add_intCast]

theorem photolysis_day (t : ℝ) (k : ℤ) (l m n : ℝ) :
    photolysisRate (t + 86400 * k) l m n = photolysisRate t l m n := by
  unfold photolysisRate
  rw [sunHeight_day]

/-- The declination is moderate, whatever the day. -/
theorem declination_abs : |declination| ≤ 0.49 := by
  unfold declination
  simp only
  generalize 2 * Real.pi * 149 / 365 = θ
  have c1 := Real.abs_cos_le_one θ
  have s1 := Real.abs_sin_le_one θ
  have c2 := Real.abs_cos_le_one (2 * θ)
  have s2 := Real.abs_sin_le_one (2 * θ)
  have c3 := Real.abs_cos_le_one (3 * θ)
  have s3 := Real.abs_sin_le_one (3 * θ)
  rw [abs_le] at *
  constructor <;> linarith [c1.1, c1.2, s1.1, s1.2, c2.1, c2.2, s2.1, s2.2, c3.1, c3.2, s3.1, s3.2]

theorem latitude_bounds : 0.89 ≤ latitude ∧ latitude ≤ 0.9 := by
  unfold latitude
  have h1 := Real.pi_gt_d4
  have h2 := Real.pi_lt_d4
  constructor <;> linarith

/-- The sun is below the horizon at midnight. -/
theorem midnight : -(Real.cos latitude * Real.cos declination) + Real.sin latitude * Real.sin declination < 0 := by
  obtain ⟨h1, h2⟩ := latitude_bounds
  have hd := abs_le.1 declination_abs
  have hpi := Real.pi_gt_d4
  have h : 0 < Real.cos (latitude + declination) :=
    Real.cos_pos_of_mem_Ioo ⟨by linarith [hd.1, hd.2], by linarith [hd.1, hd.2]⟩
  rw [Real.cos_add] at h
  linarith

/-- The sun is well above the horizon at noon. -/
theorem midday : 1e-30 < Real.cos latitude * Real.cos declination + Real.sin latitude * Real.sin declination := by
  obtain ⟨h1, h2⟩ := latitude_bounds
  have hd := abs_le.1 declination_abs
  have hpi := Real.pi_gt_d4
  have h0 : (0.03 : ℝ) ≤ 1 - (latitude - declination) ^ 2 / 2 := by
    have a : 0 ≤ latitude - declination := by linarith [hd.1, hd.2]
    have b : latitude - declination ≤ 1.39 := by linarith [hd.1, hd.2]
    nlinarith
  have h := Real.one_sub_sq_div_two_le_cos (x := latitude - declination)
  rw [Real.cos_sub] at h
  have : (1e-30 : ℝ) < 0.03 := by norm_num
  linarith

theorem swing_pos : 0 < Real.cos latitude * Real.cos declination := by
  have h1 := midnight
  have h2 := midday
  have : (0 : ℝ) < 1e-30 := by norm_num
  linarith

/-- Higher in the morning the later, lower in the afternoon. -/
theorem sunHeight_anti : StrictAntiOn (fun s => sunHeight (solarNoon + s)) (Icc 0 43200) := by
  intro s hs s' hs' hlt
  have hpi := Real.pi_pos
  have h := Real.strictAntiOn_cos (a := 2 * Real.pi * s / 86400) (b := 2 * Real.pi * s' / 86400)
    ⟨by have := hs.1; positivity, by rw [div_le_iff₀ (by norm_num)]; nlinarith [hs.2]⟩
    ⟨by have := hs'.1; positivity, by rw [div_le_iff₀ (by norm_num)]; nlinarith [hs'.2]⟩
    (by apply div_lt_div_of_pos_right _ (by norm_num); nlinarith)
  dsimp only
  rw [sunHeight_noon, sunHeight_noon]
  have := swing_pos
  nlinarith

theorem sunHeight_mirror (s : ℝ) : sunHeight (solarNoon - s) = sunHeight (solarNoon + s) := by
  rw [sub_eq_add_neg, sunHeight_noon, sunHeight_noon, ← Real.cos_neg]
  congr 3
  ring

theorem sunHeight_abs (s : ℝ) : sunHeight (solarNoon + s) = sunHeight (solarNoon + |s|) := by
  rcases abs_cases s with ⟨h, -⟩ | ⟨h, -⟩
  · rw [h]
  · rw [h, ← sunHeight_mirror (-s)]
    congr 1
    ring

/-- Half the time during which the photolysis rates are switched on. -/
theorem exists_dusk : ∃ d ∈ Ioo (0 : ℝ) 43200, ∀ s, |s| ≤ 43200 →
    (1e-30 < sunHeight (solarNoon + s) ↔ |s| < d) ∧ (sunHeight (solarNoon + s) < 1e-30 ↔ d < |s|) := by
  have hc : ContinuousOn (fun s => sunHeight (solarNoon + s)) (Icc 0 43200) :=
    (sunHeight_continuous.comp (by fun_prop)).continuousOn
  have h0 : 1e-30 < sunHeight (solarNoon + 0) := by
    rw [sunHeight_noon]
    have := midday
    simpa using this
  have h1 : sunHeight (solarNoon + 43200) < 1e-30 := by
    rw [sunHeight_noon]
    have := midnight
    have e : 2 * Real.pi * 43200 / 86400 = Real.pi := by ring
    rw [e, Real.cos_pi]
    have : (0 : ℝ) < 1e-30 := by norm_num
    linarith
  obtain ⟨d, hd, hdv⟩ := intermediate_value_Icc' (by norm_num : (0 : ℝ) ≤ 43200) hc ⟨h1.le, h0.le⟩
  dsimp only at hdv
  have hd0 : 0 < d := by
    rcases hd.1.lt_or_eq with h | h
    · exact h
    · rw [← h] at hdv; linarith
  have hd1 : d < 43200 := by
    rcases hd.2.lt_or_eq with h | h
    · exact h
    · rw [h] at hdv; linarith
  refine ⟨d, ⟨hd0, hd1⟩, fun s hs => ?_⟩
  have hmem : |s| ∈ Icc (0 : ℝ) 43200 := ⟨abs_nonneg s, hs⟩
  rw [sunHeight_abs s]
  constructor
  · rw [← hdv]
    exact sunHeight_anti.lt_iff_gt hd hmem
  · rw [← hdv]
    exact sunHeight_anti.lt_iff_gt hmem hd

/-- Photolysis rates grow with the height of the sun. -/
theorem photolysis_mono {l m n : ℝ} (hl : 0 < l) (hm : 0 < m) (hn : 0 ≤ n) {t t' : ℝ}
    (h : sunHeight t ≤ sunHeight t') : photolysisRate t l m n ≤ photolysisRate t' l m n := by
  unfold photolysisRate
  by_cases h1 : sunHeight t ≤ 1e-30
  · rw [if_pos h1]
    by_cases h2 : sunHeight t' ≤ 1e-30
    · rw [if_pos h2]
    · rw [if_neg h2]
      have : 0 < sunHeight t' := lt_trans (by norm_num) (not_le.1 h2)
      positivity
  · have h2 : ¬ sunHeight t' ≤ 1e-30 := fun hc => h1 (h.trans hc)
    rw [if_neg h1, if_neg h2]
    have p1 : 0 < sunHeight t := lt_trans (by norm_num) (not_le.1 h1)
    have p2 : 0 < sunHeight t' := lt_of_lt_of_le p1 h
    apply mul_le_mul
    · exact mul_le_mul_of_nonneg_left (Real.rpow_le_rpow p1.le h hm.le) hl.le
    · apply Real.exp_le_exp.2
      rw [neg_div, neg_div]
      exact neg_le_neg (div_le_div_of_nonneg_left hn p1 h)
    · exact (Real.exp_pos _).le
    · positivity

theorem table_signs : ∀ row ∈ photolysisTable, 0 < row.2.1 ∧ 0 < row.2.2.1 ∧ 0 < row.2.2.2 := by
  decide +kernel

theorem table_row {k : Nat} (hk : k ∈ photolysisTable.map Prod.fst) : ∃ l m n : ℚ,
    (k, l, m, n) ∈ photolysisTable ∧ (0 : ℝ) < l ∧ (0 : ℝ) < m ∧ (0 : ℝ) < n := by
  obtain ⟨⟨k', l, m, n⟩, hrow, rfl⟩ := List.mem_map.1 hk
  obtain ⟨h1, h2, h3⟩ := table_signs _ hrow
  exact ⟨l, m, n, hrow, by exact_mod_cast h1, by exact_mod_cast h2, by exact_mod_cast h3⟩

theorem slotValue_eq {b : Backend} (hb : b ≠ .python) (T r h : ℝ) (junk : Vals) {k : Nat} {l m n : ℚ}
    (hr : (k, l, m, n) ∈ photolysisTable) :
    slotValue b T r h junk k = fun t => photolysisRate t l m n :=
  funext fun t => (C47_photolysis b hb T t r h junk k l m n hr).1

/-! ### Continuity -/

/-- The rate as a function of the height. -/
noncomputable def dayRate (l m n x : ℝ) : ℝ := l * x ^ m * Real.exp (-n / x)

theorem photolysisRate_eq (t l m n : ℝ) :
    photolysisRate t l m n = if sunHeight t ≤ 1e-30 then 0 else dayRate l m n (sunHeight t) := rfl

theorem dayRate_continuousAt (l m n : ℝ) {x : ℝ} (hx : 0 < x) : ContinuousAt (dayRate l m n) x := by
  unfold dayRate
  have h1 : ContinuousAt (fun y : ℝ => y ^ m) x := Real.continuousAt_rpow_const x m (Or.inl hx.ne')
  have h2 : ContinuousAt (fun y : ℝ => -n / y) x := continuousAt_const.div continuousAt_id hx.ne'
  exact (continuousAt_const.mul h1).mul (Real.continuous_exp.continuousAt.comp h2)

theorem dayRate_pos {l m n x : ℝ} (hl : 0 < l) (hx : 0 < x) : 0 < dayRate l m n x := by
  unfold dayRate
  have := Real.rpow_pos_of_pos hx m
  positivity

/-- Where the sun is not exactly at the threshold the rate is continuous. -/
theorem photolysis_continuousAt (l m n : ℝ) {t : ℝ} (ht : sunHeight t ≠ 1e-30) :
    ContinuousAt (fun t => photolysisRate t l m n) t := by
  rcases lt_or_gt_of_ne ht with h | h
  · have : (fun t => photolysisRate t l m n) =ᶠ[𝓝 t] fun _ => 0 := by
      filter_upwards [sunHeight_continuous.continuousAt.eventually (gt_mem_nhds h)] with t' ht'
      rw [photolysisRate_eq, if_pos (le_of_lt ht')]
    exact continuousAt_const.congr this.symm
  · have : (fun t => photolysisRate t l m n) =ᶠ[𝓝 t] fun t => dayRate l m n (sunHeight t) := by
      filter_upwards [sunHeight_continuous.continuousAt.eventually (lt_mem_nhds h)] with t' ht'
      rw [photolysisRate_eq, if_neg (not_le.2 ht')]
    refine ContinuousAt.congr ?_ this.symm
    exact ContinuousAt.comp (dayRate_continuousAt l m n (lt_trans (by norm_num) h))
      sunHeight_continuous.continuousAt

/-- Every time is within half a day of some noon. -/
theorem nearest_noon (t : ℝ) : ∃ (i : ℤ) (s : ℝ), t = solarNoon + s + 86400 * i ∧ |s| ≤ 43200 := by
  refine ⟨round ((t - solarNoon) / 86400), t - solarNoon - 86400 * round ((t - solarNoon) / 86400),
    by ring, ?_⟩
  have h := abs_sub_round ((t - solarNoon) / 86400)
  rw [abs_le] at h ⊢
  constructor
  · have := h.1
    rw [le_sub_iff_add_le, le_div_iff₀ (by norm_num)] at this
    linarith
  · have := h.2
    rw [sub_le_iff_le_add, div_le_iff₀ (by norm_num)] at this
    linarith

/-- On one side of the threshold the rate is that of the day, on the other it is zero. -/
theorem photolysis_dusk {d : ℝ} (hd : d ∈ Ioo (0 : ℝ) 43200)
    (hdusk : ∀ s, |s| ≤ 43200 → (1e-30 < sunHeight (solarNoon + s) ↔ |s| < d) ∧
      (sunHeight (solarNoon + s) < 1e-30 ↔ d < |s|)) (l m n : ℝ) {i : ℤ} {s : ℝ} (hs : |s| = d) :
    sunHeight (solarNoon + s + 86400 * i) = 1e-30 ∧
    ((Tendsto (fun t => photolysisRate t l m n) (𝓝[<] (solarNoon + s + 86400 * i)) (𝓝 0) ∧
      Tendsto (fun t => photolysisRate t l m n) (𝓝[>] (solarNoon + s + 86400 * i))
        (𝓝 (dayRate l m n 1e-30))) ∨
    (Tendsto (fun t => photolysisRate t l m n) (𝓝[<] (solarNoon + s + 86400 * i))
        (𝓝 (dayRate l m n 1e-30)) ∧
      Tendsto (fun t => photolysisRate t l m n) (𝓝[>] (solarNoon + s + 86400 * i)) (𝓝 0))) := by
  set t0 := solarNoon + s + 86400 * i with ht0
  have hh : sunHeight t0 = 1e-30 := by
    rw [ht0, sunHeight_day]
    have h1 := hdusk s (hs.le.trans hd.2.le)
    have h2 : ¬ 1e-30 < sunHeight (solarNoon + s) := fun h => absurd (h1.1.1 h) (by linarith)
    have h3 : ¬ sunHeight (solarNoon + s) < 1e-30 := fun h => absurd (h1.2.1 h) (by linarith)
    linarith
  have hday : Tendsto (fun t => dayRate l m n (sunHeight t)) (𝓝 t0) (𝓝 (dayRate l m n 1e-30)) := by
    have h1 : ContinuousAt (dayRate l m n) (sunHeight t0) := by
      rw [hh]; exact dayRate_continuousAt l m n (by norm_num)
    have := (ContinuousAt.comp h1 sunHeight_continuous.continuousAt).tendsto
    simpa only [Function.comp_def, hh] using this
  -- times close by, as offsets from the same noon
  have hoff : ∀ t, sunHeight t = sunHeight (solarNoon + (s + (t - t0))) := by
    intro t
    rw [← sunHeight_day (solarNoon + (s + (t - t0))) i]
    congr 1
    rw [ht0]; ring
  have up : ∀ t, |s + (t - t0)| < d → photolysisRate t l m n = dayRate l m n (sunHeight t) := by
    intro t ht
    rw [photolysisRate_eq, if_neg]
    rw [hoff t]
    exact not_le.2 ((hdusk _ (ht.le.trans hd.2.le)).1.2 ht)
  have down : ∀ t, d ≤ |s + (t - t0)| → |s + (t - t0)| ≤ 43200 → photolysisRate t l m n = 0 := by
    intro t ht ht'
    rw [photolysisRate_eq, if_pos]
    rw [hoff t]
    exact not_lt.1 fun h => absurd ((hdusk _ ht').1.1 h) (not_lt.2 ht)
  have hδ : 0 < min d (43200 - d) := lt_min hd.1 (by linarith [hd.2])
  have hleft : ∀ᶠ t in 𝓝[<] t0, t < t0 ∧ |t - t0| < min d (43200 - d) := by
    filter_upwards [self_mem_nhdsWithin, mem_nhdsWithin_of_mem_nhds (Metric.ball_mem_nhds t0 hδ)]
      with t h1 h2
    exact ⟨h1, by rwa [Metric.mem_ball, Real.dist_eq] at h2⟩
  have hright : ∀ᶠ t in 𝓝[>] t0, t0 < t ∧ |t - t0| < min d (43200 - d) := by
    filter_upwards [self_mem_nhdsWithin, mem_nhdsWithin_of_mem_nhds (Metric.ball_mem_nhds t0 hδ)]
      with t h1 h2
    exact ⟨h1, by rwa [Metric.mem_ball, Real.dist_eq] at h2⟩
  refine ⟨hh, ?_⟩
  rcases abs_eq (le_of_lt hd.1) |>.1 hs with h | h
  · right
    constructor
    · refine (hday.mono_left nhdsWithin_le_nhds).congr' ?_
      filter_upwards [hleft] with t ht
      have h2 := abs_lt.1 (lt_of_lt_of_le ht.2 (min_le_left _ _))
      exact (up t (abs_lt.2 ⟨by linarith, by linarith⟩)).symm
    · refine tendsto_const_nhds.congr' ?_
      filter_upwards [hright] with t ht
      have h3 := abs_lt.1 (lt_of_lt_of_le ht.2 (min_le_right _ _))
      have e : |s + (t - t0)| = d + (t - t0) := by
        rw [h, abs_of_pos]; linarith [hd.1]
      exact (down t (by rw [e]; linarith) (by rw [e]; linarith)).symm
  · left
    constructor
    · refine tendsto_const_nhds.congr' ?_
      filter_upwards [hleft] with t ht
      have h3 := abs_lt.1 (lt_of_lt_of_le ht.2 (min_le_right _ _))
      have e : |s + (t - t0)| = d - (t - t0) := by
        rw [h, abs_of_neg]
        · ring
        · linarith [hd.1]
      exact (down t (by rw [e]; linarith) (by rw [e]; linarith)).symm
    · refine (hday.mono_left nhdsWithin_le_nhds).congr' ?_
      filter_upwards [hright] with t ht
      have h2 := abs_lt.1 (lt_of_lt_of_le ht.2 (min_le_left _ _))
      exact (up t (abs_lt.2 ⟨by linarith, by linarith⟩)).symm

/-! ### C65 -/

/-- C65. Every photolysis rate repeats after a day, is the same before and after solar noon, does not fall
from midnight to noon and does not rise from noon to midnight. -/
theorem C65_course {b : Backend} (hb : b ≠ .python) (T r h : ℝ) (junk : Vals) {k : Nat}
    (hk : k ∈ photolysisTable.map Prod.fst) :
    (∀ t, slotValue b T r h junk k (t + 86400) = slotValue b T r h junk k t) ∧
    (∀ s, slotValue b T r h junk k (solarNoon - s) = slotValue b T r h junk k (solarNoon + s)) ∧
    MonotoneOn (slotValue b T r h junk k) (Icc (solarNoon - 43200) solarNoon) ∧
    AntitoneOn (slotValue b T r h junk k) (Icc solarNoon (solarNoon + 43200)) := by
  obtain ⟨l, m, n, hr, hl, hm, hn⟩ := table_row hk
  rw [slotValue_eq hb T r h junk hr]
  have hanti : AntitoneOn (fun t => photolysisRate t l m n) (Icc solarNoon (solarNoon + 43200)) := by
    intro t ht t' ht' hle
    refine photolysis_mono hl hm hn.le ?_
    have := sunHeight_anti.antitoneOn (a := t - solarNoon) (b := t' - solarNoon)
      ⟨by linarith [ht.1], by linarith [ht.2]⟩ ⟨by linarith [ht'.1], by linarith [ht'.2]⟩ (by linarith)
    rwa [add_sub_cancel, add_sub_cancel] at this
  have hsym : ∀ s, photolysisRate (solarNoon - s) l m n = photolysisRate (solarNoon + s) l m n := by
    intro s
    rw [photolysisRate_eq, photolysisRate_eq, sunHeight_mirror]
  refine ⟨fun t => ?_, hsym, fun t ht t' ht' hle => ?_, hanti⟩
  · have := photolysis_day t 1 l m n
    rwa [Int.cast_one, mul_one] at this
  · have := hanti (a := solarNoon + (solarNoon - t')) (b := solarNoon + (solarNoon - t))
      ⟨by linarith [ht'.2], by linarith [ht'.1]⟩ ⟨by linarith [ht.2], by linarith [ht.1]⟩ (by linarith)
    dsimp only at this ⊢
    rw [← hsym, ← hsym, sub_sub_cancel, sub_sub_cancel] at this
    exact this

/-- C65. On every day all photolysis rates are switched on at the same time and off at the same time, and
there is a day and a night. -/
theorem C65_daylight : ∃ d ∈ Ioo (0 : ℝ) 43200, ∀ (b : Backend), b ≠ .python → ∀ (T r h : ℝ) (junk : Vals),
    ∀ k ∈ photolysisTable.map Prod.fst, ∀ (i : ℤ) (s : ℝ), |s| ≤ 43200 →
      (0 < slotValue b T r h junk k (solarNoon + s + 86400 * i) ↔ |s| < d) ∧
      (slotValue b T r h junk k (solarNoon + s + 86400 * i) = 0 ↔ d ≤ |s|) := by
  obtain ⟨d, hd, hdusk⟩ := exists_dusk
  refine ⟨d, hd, fun b hb T r h junk k hk i s hs => ?_⟩
  obtain ⟨l, m, n, hr, hl, hm, hn⟩ := table_row hk
  rw [slotValue_eq hb T r h junk hr]
  dsimp only
  rw [photolysis_day]
  have hon : |s| < d → 0 < photolysisRate (solarNoon + s) l m n := by
    intro hlt
    have := (hdusk s hs).1.2 hlt
    rw [photolysisRate_eq, if_neg (not_le.2 this)]
    exact dayRate_pos hl (lt_trans (by norm_num) this)
  have hoff : d ≤ |s| → photolysisRate (solarNoon + s) l m n = 0 := by
    intro hle
    rw [photolysisRate_eq, if_pos]
    exact not_lt.1 fun hc => absurd ((hdusk s hs).1.1 hc) (not_lt.2 hle)
  refine ⟨⟨fun hp => ?_, hon⟩, ⟨fun hz => ?_, hoff⟩⟩
  · by_contra hc
    rw [hoff (not_lt.1 hc)] at hp
    exact lt_irrefl _ hp
  · by_contra hc
    have := hon (not_le.1 hc)
    rw [hz] at this
    exact lt_irrefl _ this

/-- Photolysis rates change continuously. -/
def C65_Statement : Prop := ∀ (b : Backend), b ≠ .python → ∀ (T r h : ℝ) (junk : Vals),
  ∀ k ∈ photolysisTable.map Prod.fst, Continuous (slotValue b T r h junk k)

/-- C65. The times at which a photolysis rate is not continuous are exactly the times at which it is
switched on or off. -/
theorem C65_exact : ∃ d ∈ Ioo (0 : ℝ) 43200, ∀ (b : Backend), b ≠ .python →
    ∀ (T r h : ℝ) (junk : Vals), ∀ k ∈ photolysisTable.map Prod.fst, ∀ t,
      ContinuousAt (slotValue b T r h junk k) t ↔
        ∀ i : ℤ, t ≠ solarNoon + 86400 * i + d ∧ t ≠ solarNoon + 86400 * i - d := by
  obtain ⟨d, hd, hdusk⟩ := exists_dusk
  refine ⟨d, hd, fun b hb T r h junk k hk t => ?_⟩
  obtain ⟨l, m, n, hr, hl, hm, hn⟩ := table_row hk
  rw [slotValue_eq hb T r h junk hr]
  constructor
  · intro hc
    have hne : ∀ (i : ℤ) (s : ℝ), |s| = d → t ≠ solarNoon + s + 86400 * i := by
      rintro i s hs rfl
      obtain ⟨h1, h2⟩ := photolysis_dusk hd hdusk l m n (i := i) hs
      have hz : photolysisRate (solarNoon + s + 86400 * i) l m n = 0 := by
        rw [photolysisRate_eq, if_pos h1.le]
      have hp : 0 < dayRate l m n 1e-30 := dayRate_pos hl (by norm_num)
      rcases h2 with ⟨-, h2⟩ | ⟨h2, -⟩
      · have := tendsto_nhds_unique h2 (hc.tendsto.mono_left nhdsWithin_le_nhds)
        rw [hz] at this
        linarith
      · have := tendsto_nhds_unique h2 (hc.tendsto.mono_left nhdsWithin_le_nhds)
        rw [hz] at this
        linarith
    intro i
    constructor
    · intro he
      exact hne i d (abs_of_pos hd.1) (by rw [he]; ring)
    · intro he
      exact hne i (-d) (by rw [abs_neg, abs_of_pos hd.1]) (by rw [he]; ring)
  · intro hne
    refine photolysis_continuousAt l m n fun hcon => ?_
    obtain ⟨i, s, rfl, hs⟩ := nearest_noon t
    rw [sunHeight_day] at hcon
    have h1 := hdusk s hs
    have hsd : |s| = d := by
      apply le_antisymm
      · exact not_lt.1 fun hc => absurd (h1.2.2 hc) (by rw [hcon]; exact lt_irrefl _)
      · exact not_lt.1 fun hc => absurd (h1.1.2 hc) (by rw [hcon]; exact lt_irrefl _)
    rcases abs_eq (le_of_lt hd.1) |>.1 hsd with h | h
    · exact (hne i).1 (by rw [h]; ring)
    · exact (hne i).2 (by rw [h]; ring)

/-- C65 does not hold: the rates are cut off while still positive. -/
theorem C65_false : ¬ C65_Statement := by
  intro hS
  obtain ⟨d, -, hex⟩ := C65_exact
  have h1 : (1 : ℕ) ∈ photolysisTable.map Prod.fst := by decide +kernel
  have h2 := (hex .numba (by decide) 298.15 0 0 (fun _ => 0) 1 h1 (solarNoon + 86400 * (0 : ℤ) + d)).1
    (hS .numba (by decide) 298.15 0 0 (fun _ => 0) 1 h1).continuousAt
  exact (h2 0).1 rfl

/-- C65, what holds instead: the rates are continuous up to jumps of at most `l * exp(-n * 10^30)`, which
no floating point number tells from zero. -/
theorem C65_continuous_partial {b : Backend} (hb : b ≠ .python) (T r h : ℝ) (junk : Vals) {k : Nat}
    {l m n : ℚ} (hr : (k, l, m, n) ∈ photolysisTable) (t : ℝ) {ε : ℝ} (hε : 0 < ε) :
    ∀ᶠ t' in 𝓝 t, |slotValue b T r h junk k t' - slotValue b T r h junk k t| <
      ε + l * Real.exp (-n * 1e30) := by
  obtain ⟨hl, hm, hn⟩ := table_signs _ hr
  have hl' : (0 : ℝ) < l := by exact_mod_cast hl
  have hm' : (0 : ℝ) < m := by exact_mod_cast hm
  have hexp := Real.exp_pos (-n * 1e30)
  rw [slotValue_eq hb T r h junk hr]
  by_cases ht : sunHeight t = 1e-30
  · have hz : photolysisRate t l m n = 0 := by rw [photolysisRate_eq, if_pos ht.le]
    have hle : dayRate l m n 1e-30 ≤ l * Real.exp (-n * 1e30) := by
      unfold dayRate
      have h1 : ((1e-30 : ℝ)) ^ (m : ℝ) ≤ 1 := Real.rpow_le_one (by norm_num) (by norm_num) hm'.le
      have h2 : (-n / 1e-30 : ℝ) = -n * 1e30 := by ring
      rw [h2]
      have h3 : (l : ℝ) * (1e-30 : ℝ) ^ (m : ℝ) ≤ l := by nlinarith
      exact mul_le_mul_of_nonneg_right h3 hexp.le
    have hc : ContinuousAt (fun t => dayRate l m n (sunHeight t)) t := by
      refine ContinuousAt.comp (g := dayRate l m n) ?_ sunHeight_continuous.continuousAt
      rw [ht]
      exact dayRate_continuousAt l m n (by norm_num)
    have hlt : dayRate l m n (sunHeight t) < ε + l * Real.exp (-n * 1e30) := by
      rw [ht]; linarith
    filter_upwards [hc.eventually (gt_mem_nhds hlt)] with t' ht'
    rw [hz, sub_zero, photolysisRate_eq]
    split
    · rw [abs_zero]; positivity
    · rename_i h1
      rw [abs_of_pos (dayRate_pos hl' (lt_trans (by norm_num) (not_le.1 h1)))]
      exact ht'
  · have hc := Metric.continuousAt_iff'.1 (photolysis_continuousAt l m n ht) ε hε
    filter_upwards [hc] with t' ht'
    rw [Real.dist_eq] at ht'
    have : (0 : ℝ) < l * Real.exp (-n * 1e30) := mul_pos hl' hexp
    linarith

/-- C65. In any bounded time the rates jump only finitely often, at the same times for all of them. -/
theorem C65_pieces (start : ℝ) :
    PiecewiseContinuous (fun (p : ℝ × ℝ × ℝ) t => photolysisRate (start + t) p.1 p.2.1 p.2.2) := by
  obtain ⟨d, hd, hdusk⟩ := exists_dusk
  have hjump : ∀ t, sunHeight t = 1e-30 → ∃ (i : ℤ) (s : ℝ), |s| = d ∧ t = solarNoon + s + 86400 * i := by
    intro t ht
    obtain ⟨i, s, rfl, hs⟩ := nearest_noon t
    rw [sunHeight_day] at ht
    have h1 := hdusk s hs
    refine ⟨i, s, le_antisymm ?_ ?_, rfl⟩
    · exact not_lt.1 fun hc => absurd (h1.2.2 hc) (by rw [ht]; exact lt_irrefl _)
    · exact not_lt.1 fun hc => absurd (h1.1.2 hc) (by rw [ht]; exact lt_irrefl _)
  have hshift : ∀ t : ℝ, ContinuousAt (fun t : ℝ => start + t) t := fun t => by fun_prop
  constructor
  · intro T
    refine ⟨{t | t ∈ Icc 0 T ∧ sunHeight (start + t) = 1e-30}, ?_, fun t ht htS p => ?_⟩
    · -- one sunrise and one sunset for each day
      obtain ⟨N, hN⟩ := exists_nat_gt ((|start| + |T| + |solarNoon| + 43200) / 86400)
      rw [div_lt_iff₀ (by norm_num)] at hN
      refine ((((finite_Icc (-(N : ℤ)) N).prod (Set.toFinite ({d, -d} : Set ℝ))).image
        (fun q : ℤ × ℝ => solarNoon + q.2 + 86400 * q.1 - start))).subset ?_
      rintro t ⟨ht, hh⟩
      obtain ⟨i, s, hs, he⟩ := hjump _ hh
      refine ⟨(i, s), ⟨?_, ?_⟩, by dsimp only; rw [← he]; ring⟩
      · have a1 := neg_abs_le start
        have a2 := le_abs_self start
        have a3 := le_abs_self T
        have a4 := neg_abs_le solarNoon
        have a5 := le_abs_self solarNoon
        have a6 := abs_le.1 (hs.le.trans hd.2.le)
        have h1 : (i : ℝ) < N := by linarith [ht.1, ht.2, a6.1, a6.2, abs_nonneg T]
        have h2 : -(N : ℝ) < i := by linarith [ht.1, ht.2, a6.1, a6.2, abs_nonneg T]
        exact ⟨by exact_mod_cast h2.le, by exact_mod_cast h1.le⟩
      · rcases abs_eq (le_of_lt hd.1) |>.1 hs with h | h
        · exact Or.inl h
        · exact Or.inr h
    · exact ContinuousAt.comp (g := fun t => photolysisRate t p.1 p.2.1 p.2.2)
        (photolysis_continuousAt _ _ _ fun hc => htS ⟨ht, hc⟩) (hshift t)
  · intro t p
    have hl : Tendsto (fun t => start + t) (𝓝[<] t) (𝓝[<] (start + t)) := by
      refine tendsto_nhdsWithin_iff.2 ⟨(hshift t).tendsto.mono_left nhdsWithin_le_nhds, ?_⟩
      filter_upwards [self_mem_nhdsWithin] with x hx
      exact add_lt_add_right hx start
    have hrt : Tendsto (fun t => start + t) (𝓝[>] t) (𝓝[>] (start + t)) := by
      refine tendsto_nhdsWithin_iff.2 ⟨(hshift t).tendsto.mono_left nhdsWithin_le_nhds, ?_⟩
      filter_upwards [self_mem_nhdsWithin] with x hx
      exact add_lt_add_right hx start
    by_cases hc : sunHeight (start + t) = 1e-30
    · obtain ⟨i, s, hs, he⟩ := hjump _ hc
      have := (photolysis_dusk hd hdusk p.1 p.2.1 p.2.2 (i := i) hs).2
      rw [← he] at this
      rcases this with ⟨h1, h2⟩ | ⟨h1, h2⟩
      · exact ⟨⟨_, h1.comp hl⟩, ⟨_, h2.comp hrt⟩⟩
      · exact ⟨⟨_, h1.comp hl⟩, ⟨_, h2.comp hrt⟩⟩
    · have h1 := photolysis_continuousAt p.1 p.2.1 p.2.2 hc
      exact ⟨⟨_, (h1.tendsto.mono_left nhdsWithin_le_nhds).comp hl⟩,
        ⟨_, (h1.tendsto.mono_left nhdsWithin_le_nhds).comp hrt⟩⟩

/-- A slot of the table, and a time of day. -/
example : (4 : ℕ) ∈ photolysisTable.map Prod.fst ∧ |(3600 : ℝ)| ≤ 43200 :=
  ⟨by decide +kernel, by norm_num⟩

end PyBox
