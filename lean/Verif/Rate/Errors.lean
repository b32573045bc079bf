import Verif.Rate.KindCheck
import Mathlib.Analysis.SpecialFunctions.Pow.Real
import Mathlib.Analysis.SpecialFunctions.Log.Base
import Mathlib.Analysis.SpecialFunctions.Trigonometric.Bounds
import Mathlib.Analysis.Complex.ExponentialBounds
import Mathlib.Analysis.Real.Pi.Bounds

/-!
# An analysis of rounding errors

For each number of a program three things may be known: how far the computed number is off in ratio, between which
bounds the logarithm of the true number lies, and between which bounds the true number lies together with the
distance of the computed one. The analysis is proved correct for every expression; it is run by the kernel on the
fixed rate program.
-/

namespace PyBox
namespace Rl

open Real

/-! ### What may be known -/

/-- `y` differs from `x` by a factor of at most `exp e`. -/
def Ratio (e x y : ℝ) : Prop := 0 ≤ e ∧ 0 ≤ x ∧ x * exp (-e) ≤ y ∧ y ≤ x * exp e

def LogIn (a b x : ℝ) : Prop := 0 < x ∧ a ≤ log x ∧ log x ≤ b

def Off (l h d x y : ℝ) : Prop := l ≤ x ∧ x ≤ h ∧ |y - x| ≤ d

namespace Ratio

variable {e d x y z : ℝ}

theorem refl (hx : 0 ≤ x) : Ratio 0 x x := ⟨le_rfl, hx, by simp, by simp⟩

theorem nonneg (h : Ratio e x y) : 0 ≤ y := le_trans (mul_nonneg h.2.1 (exp_pos _).le) h.2.2.1

theorem mono (h : Ratio e x y) (hd : e ≤ d) : Ratio d x y := by
  obtain ⟨h1, h2, h3, h4⟩ := h
  refine ⟨h1.trans hd, h2, le_trans ?_ h3, h4.trans ?_⟩
  · exact mul_le_mul_of_nonneg_left (exp_le_exp.2 (by linarith)) h2
  · exact mul_le_mul_of_nonneg_left (exp_le_exp.2 hd) h2

theorem trans (h : Ratio e x y) (h' : Ratio d y z) : Ratio (e + d) x z := by
  obtain ⟨h1, h2, h3, h4⟩ := h
  obtain ⟨k1, k2, k3, k4⟩ := h'
  refine ⟨by linarith, h2, ?_, ?_⟩
  · rw [neg_add, exp_add, ← mul_assoc]
    exact le_trans (mul_le_mul_of_nonneg_right h3 (exp_pos _).le) k3
  · rw [exp_add, ← mul_assoc]
    exact k4.trans (mul_le_mul_of_nonneg_right h4 (exp_pos _).le)

theorem zero (h : Ratio e 0 y) : y = 0 := by
  obtain ⟨-, -, h3, h4⟩ := h
  rw [zero_mul] at h3 h4
  exact le_antisymm h4 h3

theorem add {e' x' y' : ℝ} (h : Ratio e x y) (h' : Ratio e' x' y') : Ratio (max e e') (x + x') (y + y') := by
  obtain ⟨h1, h2, h3, h4⟩ := h.mono (le_max_left e e')
  obtain ⟨k1, k2, k3, k4⟩ := h'.mono (le_max_right e e')
  refine ⟨h1, by linarith, ?_, ?_⟩ <;> rw [add_mul] <;> linarith

theorem mul {e' x' y' : ℝ} (h : Ratio e x y) (h' : Ratio e' x' y') : Ratio (e + e') (x * x') (y * y') := by
  have hy := h.nonneg
  have hy' := h'.nonneg
  obtain ⟨h1, h2, h3, h4⟩ := h
  obtain ⟨k1, k2, k3, k4⟩ := h'
  refine ⟨by linarith, mul_nonneg h2 k2, ?_, ?_⟩
  · rw [neg_add, exp_add]
    calc x * x' * (exp (-e) * exp (-e')) = (x * exp (-e)) * (x' * exp (-e')) := by ring
      _ ≤ y * y' := mul_le_mul h3 k3 (mul_nonneg k2 (exp_pos _).le) hy
  · rw [exp_add]
    calc y * y' ≤ (x * exp e) * (x' * exp e') := mul_le_mul h4 k4 hy' (mul_nonneg h2 (exp_pos _).le)
      _ = x * x' * (exp e * exp e') := by ring

theorem inv (h : Ratio e x y) : Ratio e x⁻¹ y⁻¹ := by
  rcases h.2.1.eq_or_lt with hx | hx
  · rw [← hx] at h
    rw [h.zero, ← hx, inv_zero]
    exact (refl le_rfl).mono h.1
  · have hy : 0 < y := lt_of_lt_of_le (mul_pos hx (exp_pos _)) h.2.2.1
    obtain ⟨h1, h2, h3, h4⟩ := h
    refine ⟨h1, (inv_pos.2 hx).le, ?_, ?_⟩
    · rw [exp_neg, ← mul_inv]
      exact inv_anti₀ hy h4
    · have := inv_anti₀ (mul_pos hx (exp_pos _)) h3
      rw [mul_inv, exp_neg, inv_inv] at this
      exact this

theorem div {e' x' y' : ℝ} (h : Ratio e x y) (h' : Ratio e' x' y') : Ratio (e + e') (x / x') (y / y') := by
  rw [div_eq_mul_inv, div_eq_mul_inv]
  exact h.mul h'.inv

theorem pos (h : Ratio e x y) (hx : 0 < x) : 0 < y := lt_of_lt_of_le (mul_pos hx (exp_pos _)) h.2.2.1

theorem log (h : Ratio e x y) (hx : 0 < x) : |Real.log y - Real.log x| ≤ e := by
  have hy := h.pos hx
  obtain ⟨h1, h2, h3, h4⟩ := h
  have a := Real.log_le_log (mul_pos hx (exp_pos _)) h3
  have b := Real.log_le_log hy h4
  rw [Real.log_mul hx.ne' (exp_pos _).ne', Real.log_exp] at a b
  rw [abs_le]
  constructor <;> linarith

theorem of_log (hx : 0 < x) (hy : 0 < y) (h : |Real.log y - Real.log x| ≤ e) : Ratio e x y := by
  obtain ⟨h1, h2⟩ := abs_le.1 h
  refine ⟨(abs_nonneg _).trans h, hx.le, ?_, ?_⟩
  · calc x * exp (-e) = exp (Real.log x + -e) := by rw [exp_add, exp_log hx]
      _ ≤ exp (Real.log y) := exp_le_exp.2 (by linarith)
      _ = y := exp_log hy
  · calc y = exp (Real.log y) := (exp_log hy).symm
      _ ≤ exp (Real.log x + e) := exp_le_exp.2 (by linarith)
      _ = x * exp e := by rw [exp_add, exp_log hx]

theorem pow {x' y' a b l h d : ℝ} (hr : Ratio e x y) (hl : LogIn a b x) (ho : Off l h d x' y') :
    Ratio ((max |l| |h| + d) * e + d * max |a| |b|) (x ^ x') (y ^ y') := by
  have hy := hr.pos hl.1
  refine of_log (rpow_pos_of_pos hl.1 _) (rpow_pos_of_pos hy _) ?_
  rw [Real.log_rpow hy, Real.log_rpow hl.1]
  have h1 := hr.log hl.1
  have hx' : |x'| ≤ max |l| |h| := by
    rw [abs_le]
    have := neg_abs_le l
    have := le_abs_self h
    constructor
    · linarith [ho.1, le_max_left |l| |h|]
    · linarith [ho.2.1, le_max_right |l| |h|]
  have hlx : |Real.log x| ≤ max |a| |b| := by
    rw [abs_le]
    have := neg_abs_le a
    have := le_abs_self b
    constructor
    · linarith [hl.2.1, le_max_left |a| |b|]
    · linarith [hl.2.2, le_max_right |a| |b|]
  have hy' : |y'| ≤ max |l| |h| + d := by
    have := abs_sub_abs_le_abs_sub y' x'
    linarith [ho.2.2]
  have hd : 0 ≤ d := (abs_nonneg _).trans ho.2.2
  calc |y' * Real.log y - x' * Real.log x| = |y' * (Real.log y - Real.log x) + (y' - x') * Real.log x| := by
        congr 1; ring
    _ ≤ |y'| * |Real.log y - Real.log x| + |y' - x'| * |Real.log x| := by
        rw [← abs_mul, ← abs_mul]; exact abs_add_le _ _
    _ ≤ _ := by
        have := mul_le_mul hy' h1 (abs_nonneg _) (by positivity)
        have := mul_le_mul ho.2.2 hlx (abs_nonneg _) hd
        linarith

theorem exp {l h d : ℝ} (ho : Off l h d x y) : Ratio d (Real.exp x) (Real.exp y) := by
  refine of_log (exp_pos _) (exp_pos _) ?_
  rw [Real.log_exp, Real.log_exp]
  exact ho.2.2

/-- A small relative distance. -/
theorem of_abs {u : ℝ} (hx : 0 ≤ x) (hu : 0 ≤ u) (hud : u ≤ d * (1 - u)) (hu1 : u < 1) (h : |y - x| ≤ u * x) :
    Ratio d x y := by
  obtain ⟨h1, h2⟩ := abs_le.1 h
  have hd : u ≤ d := by
    by_contra hc
    push Not at hc
    nlinarith
  have hd0 : 0 ≤ d := hu.trans hd
  refine ⟨hd0, hx, ?_, ?_⟩
  · have he : Real.exp (-d) ≤ 1 - u := by
      rw [Real.exp_neg]
      have h3 : (1 - u)⁻¹ ≤ Real.exp d := by
        have h4 : (1 - u)⁻¹ ≤ 1 + d := by
          rw [inv_le_iff_one_le_mul₀ (by linarith)]
          nlinarith
        have := Real.add_one_le_exp d
        linarith
      have := inv_anti₀ (inv_pos.2 (by linarith : (0:ℝ) < 1 - u)) h3
      rwa [inv_inv] at this
    have := mul_le_mul_of_nonneg_left he hx
    nlinarith
  · have := mul_le_mul_of_nonneg_left (Real.add_one_le_exp d) hx
    nlinarith

theorem of_off {l h : ℝ} (hl : 0 < l) (hd : d ≤ l / 2) (ho : Off l h d x y) : Ratio (2 * d / l) x y := by
  have hd0 : 0 ≤ d := (abs_nonneg _).trans ho.2.2
  have hx : 0 < x := hl.trans_le ho.1
  refine of_abs (u := d / l) hx.le (by positivity) ?_ ?_ ?_
  · have : d / l ≤ 1 / 2 := by rw [div_le_div_iff₀ hl two_pos]; linarith
    have h2 : 2 * d / l = 2 * (d / l) := by ring
    have h3 : 0 ≤ d / l := by positivity
    rw [h2]
    nlinarith
  · rw [div_lt_one hl]; linarith
  · refine ho.2.2.trans ?_
    rw [div_mul_eq_mul_div, le_div_iff₀ hl]
    exact mul_le_mul_of_nonneg_left ho.1 hd0

end Ratio

/-! ### Rounding -/

theorem exp_le_of {n : ℕ} {c : ℝ} (h : (2.7182818286 : ℝ) ^ n ≤ c) : exp n ≤ c := by
  have h1 : exp (1 : ℝ) ≤ 2.7182818286 := Real.exp_one_lt_d9.le
  have h2 : exp (n : ℝ) = exp 1 ^ n := by rw [← Real.exp_nat_mul, mul_one]
  rw [h2]
  exact (pow_le_pow_left₀ (exp_pos _).le h1 n).trans h

theorem exp_87 : exp (87 : ℝ) ≤ 10 ^ 38 := by
  have := exp_le_of (n := 87) (c := 10 ^ 38) (by norm_num)
  exact_mod_cast this

theorem exp_neg_69 : (10 : ℝ) ^ (-30 : ℤ) ≤ exp (-69 : ℝ) := by
  have := exp_le_of (n := 69) (c := 10 ^ 30) (by norm_num)
  rw [exp_neg, zpow_neg]
  refine inv_anti₀ (exp_pos _) ?_
  exact_mod_cast this

theorem exp_neg_88 : (1.7e38 : ℝ)⁻¹ ≤ exp (-88 : ℝ) := by
  have := exp_le_of (n := 88) (c := 1.7e38) (by norm_num)
  rw [exp_neg]
  refine inv_anti₀ (exp_pos _) ?_
  exact_mod_cast this

theorem round_double {z r : ℝ} (hz : 0 ≤ z) (h : ieee .double z r) : Ratio (3e-16) z r := by
  have h' : |r - z| ≤ 2⁻¹ ^ 52 * |z| := h
  rw [abs_of_nonneg hz] at h'
  exact Ratio.of_abs hz (by positivity) (by norm_num) (by norm_num) h'

theorem round_single {z r : ℝ} (hz : (10 : ℝ) ^ (-30 : ℤ) ≤ z) (hz' : z ≤ 10 ^ 38) (h : ieee .single z r) :
    Ratio (6e-8) z r := by
  have hz0 : 0 ≤ z := le_trans (by positivity) hz
  have h' : |r - z| ≤ 2⁻¹ ^ 24 * |z| + 2⁻¹ ^ 150 := h (by rw [abs_of_nonneg hz0]; exact hz')
  rw [abs_of_nonneg hz0] at h'
  refine Ratio.of_abs (u := 2⁻¹ ^ 24 + 1e-15) hz0 (by positivity) (by norm_num) (by norm_num) (h'.trans ?_)
  have : (2⁻¹ : ℝ) ^ 150 ≤ 1e-15 * (10 : ℝ) ^ (-30 : ℤ) := by norm_num
  have h2 := mul_le_mul_of_nonneg_left hz (by norm_num : (0:ℝ) ≤ 1e-15)
  linarith

theorem round_small {z r : ℝ} (hz : (1.7e38 : ℝ)⁻¹ ≤ z) (hz' : z ≤ 10 ^ 38) (h : ieee .single z r) :
    Ratio (2e-7) z r := by
  have hz0 : 0 ≤ z := le_trans (by positivity) hz
  have h' : |r - z| ≤ 2⁻¹ ^ 24 * |z| + 2⁻¹ ^ 150 := h (by rw [abs_of_nonneg hz0]; exact hz')
  rw [abs_of_nonneg hz0] at h'
  refine Ratio.of_abs (u := 2⁻¹ ^ 24 + 1.2e-7) hz0 (by positivity) (by norm_num) (by norm_num) (h'.trans ?_)
  have : (2⁻¹ : ℝ) ^ 150 ≤ 1.2e-7 * (1.7e38 : ℝ)⁻¹ := by norm_num
  have h2 := mul_le_mul_of_nonneg_left hz (by norm_num : (0:ℝ) ≤ 1.2e-7)
  linarith

/-! ### Bounds -/

namespace Off

variable {l h d x y l' h' d' x' y' : ℝ}

theorem dist (o : Off l h d x y) : 0 ≤ d := (abs_nonneg _).trans o.2.2

theorem neg (o : Off l h d x y) : Off (-h) (-l) d (-x) (-y) := by
  refine ⟨by linarith [o.2.1], by linarith [o.1], ?_⟩
  rw [← abs_neg]
  have := o.2.2
  rwa [show -(-y - -x) = y - x by ring]

theorem add (o : Off l h d x y) (o' : Off l' h' d' x' y') : Off (l + l') (h + h') (d + d') (x + x') (y + y') := by
  refine ⟨by linarith [o.1, o'.1], by linarith [o.2.1, o'.2.1], ?_⟩
  rw [show y + y' - (x + x') = (y - x) + (y' - x') by ring]
  exact (abs_add_le _ _).trans (add_le_add o.2.2 o'.2.2)

theorem sub (o : Off l h d x y) (o' : Off l' h' d' x' y') : Off (l - h') (h - l') (d + d') (x - x') (y - y') := by
  have := o.add o'.neg
  rw [sub_eq_add_neg, sub_eq_add_neg, sub_eq_add_neg, sub_eq_add_neg]
  exact this

theorem abs_le (o : Off l h d x y) : |x| ≤ max |l| |h| := by
  rw [_root_.abs_le]
  have := neg_abs_le l
  have := le_abs_self h
  constructor
  · linarith [o.1, le_max_left |l| |h|]
  · linarith [o.2.1, le_max_right |l| |h|]

theorem abs_le' (o : Off l h d x y) : |y| ≤ max |l| |h| + d := by
  have := abs_sub_abs_le_abs_sub y x
  linarith [o.2.2, o.abs_le]

theorem lin (h1 : l ≤ x) (h2 : x ≤ h) (c : ℝ) : min (l * c) (h * c) ≤ x * c ∧ x * c ≤ max (l * c) (h * c) := by
  rcases le_total 0 c with hc | hc
  · exact ⟨(min_le_left _ _).trans (mul_le_mul_of_nonneg_right h1 hc),
      (mul_le_mul_of_nonneg_right h2 hc).trans (le_max_right _ _)⟩
  · exact ⟨(min_le_right _ _).trans (mul_le_mul_of_nonpos_right h2 hc),
      (mul_le_mul_of_nonpos_right h1 hc).trans (le_max_left _ _)⟩

theorem box (h1 : l ≤ x) (h2 : x ≤ h) (h3 : l' ≤ x') (h4 : x' ≤ h') :
    min (min (l * l') (l * h')) (min (h * l') (h * h')) ≤ x * x' ∧
      x * x' ≤ max (max (l * l') (l * h')) (max (h * l') (h * h')) := by
  obtain ⟨a1, a2⟩ := lin h1 h2 x'
  obtain ⟨b1, b2⟩ := lin h3 h4 l
  obtain ⟨c1, c2⟩ := lin h3 h4 h
  rw [mul_comm l' l, mul_comm h' l, mul_comm x' l] at b1 b2
  rw [mul_comm l' h, mul_comm h' h, mul_comm x' h] at c1 c2
  exact ⟨(min_le_min b1 c1).trans a1, a2.trans (max_le_max b2 c2)⟩

theorem mul (o : Off l h d x y) (o' : Off l' h' d' x' y') :
    Off (min (min (l * l') (l * h')) (min (h * l') (h * h'))) (max (max (l * l') (l * h')) (max (h * l') (h * h')))
      (max |l| |h| * d' + (max |l'| |h'| + d') * d) (x * x') (y * y') := by
  obtain ⟨b1, b2⟩ := box o.1 o.2.1 o'.1 o'.2.1
  refine ⟨b1, b2, ?_⟩
  rw [show y * y' - x * x' = x * (y' - x') + y' * (y - x) by ring]
  refine (abs_add_le _ _).trans (add_le_add ?_ ?_)
  · rw [abs_mul]
    exact mul_le_mul o.abs_le o'.2.2 (abs_nonneg _) ((abs_nonneg _).trans o.abs_le)
  · rw [abs_mul]
    exact mul_le_mul o'.abs_le' o.2.2 (abs_nonneg _) ((abs_nonneg _).trans o'.abs_le')

theorem inv (o : Off l h d x y) (hl : 0 < l) (hd : d < l) : Off h⁻¹ l⁻¹ (d / (l * (l - d))) x⁻¹ y⁻¹ := by
  have hx : 0 < x := hl.trans_le o.1
  have hy : l - d ≤ y := by
    have := (_root_.abs_le.1 o.2.2).1
    linarith [o.1]
  have hy0 : 0 < y := lt_of_lt_of_le (by linarith) hy
  refine ⟨inv_anti₀ hx o.2.1, inv_anti₀ hl o.1, ?_⟩
  have : y⁻¹ - x⁻¹ = (x - y) / (x * y) := by field_simp
  rw [this, abs_div, abs_sub_comm, abs_of_pos (mul_pos hx hy0)]
  exact div_le_div₀ o.dist o.2.2 (mul_pos hl (by linarith)) (mul_le_mul o.1 hy (by linarith) hx.le)

theorem square (o : Off l h d x y) :
    Off (if 0 ≤ l then l ^ 2 else if h ≤ 0 then h ^ 2 else 0) (max |l| |h| ^ 2) (d * (2 * max |l| |h| + d))
      (x ^ 2) (y ^ 2) := by
  refine ⟨?_, ?_, ?_⟩
  · split
    · rename_i hl
      exact pow_le_pow_left₀ hl o.1 2
    · split
      · rename_i hh
        nlinarith [o.2.1]
      · positivity
  · rw [← sq_abs x]
    exact pow_le_pow_left₀ (abs_nonneg _) o.abs_le 2
  · rw [show y ^ 2 - x ^ 2 = (y - x) * (x + y) by ring, abs_mul]
    refine mul_le_mul o.2.2 ?_ (abs_nonneg _) o.dist
    refine (abs_add_le _ _).trans ?_
    linarith [o.abs_le, o.abs_le']

end Off

namespace LogIn

variable {a b x a' b' x' : ℝ}

theorem mul (h : LogIn a b x) (h' : LogIn a' b' x') : LogIn (a + a') (b + b') (x * x') := by
  refine ⟨mul_pos h.1 h'.1, ?_, ?_⟩ <;> rw [Real.log_mul h.1.ne' h'.1.ne']
  · linarith [h.2.1, h'.2.1]
  · linarith [h.2.2, h'.2.2]

theorem div (h : LogIn a b x) (h' : LogIn a' b' x') : LogIn (a - b') (b - a') (x / x') := by
  refine ⟨div_pos h.1 h'.1, ?_, ?_⟩ <;> rw [Real.log_div h.1.ne' h'.1.ne']
  · linarith [h.2.1, h'.2.2]
  · linarith [h.2.2, h'.2.1]

theorem add (h : LogIn a b x) (h' : LogIn a' b' x') : LogIn (max a a') (max b b' + 0.7) (x + x') := by
  have hx := h.1
  have hx' := h'.1
  have hp : 0 < x + x' := add_pos h.1 h'.1
  refine ⟨hp, max_le ?_ ?_, ?_⟩
  · exact h.2.1.trans (Real.log_le_log h.1 (by linarith))
  · exact h'.2.1.trans (Real.log_le_log h'.1 (by linarith))
  · have hm : x + x' ≤ 2 * max x x' := by linarith [le_max_left x x', le_max_right x x']
    have hm0 : 0 < max x x' := lt_max_of_lt_left h.1
    have h1 := Real.log_le_log hp hm
    rw [Real.log_mul two_ne_zero hm0.ne'] at h1
    have h2 : Real.log (max x x') ≤ max b b' := by
      rcases max_cases x x' with ⟨e, -⟩ | ⟨e, -⟩ <;> rw [e]
      · exact h.2.2.trans (le_max_left _ _)
      · exact h'.2.2.trans (le_max_right _ _)
    have := Real.log_two_lt_d9
    linarith

theorem pow {l h d y' : ℝ} (hl : LogIn a b x) (o : Off l h d x' y') :
    LogIn (min (min (l * a) (l * b)) (min (h * a) (h * b))) (max (max (l * a) (l * b)) (max (h * a) (h * b)))
      (x ^ x') := by
  have hb := Off.box o.1 o.2.1 hl.2.1 hl.2.2
  refine ⟨rpow_pos_of_pos hl.1 _, ?_, ?_⟩ <;> rw [Real.log_rpow hl.1]
  · exact hb.1
  · exact hb.2

end LogIn

theorem log_ten_bounds : (2.302 : ℝ) ≤ log 10 ∧ log 10 ≤ 2.304 := by
  have h2 := Real.log_two_gt_d9
  have h2' := Real.log_two_lt_d9
  have hl : log (10 : ℝ) = 3 * log 2 + log (1.25 : ℝ) := by
    rw [show (10 : ℝ) = 2 ^ 3 * 1.25 by norm_num, Real.log_mul (by norm_num) (by norm_num), Real.log_pow]
    push_cast
    ring
  have h5 : (3 : ℝ) * log 1.25 = log 2 - log 1.024 := by
    rw [← Real.log_div (by norm_num) (by norm_num)]
    rw [show (3 : ℝ) * log 1.25 = log (1.25 ^ 3) by rw [Real.log_pow]; push_cast; ring]
    norm_num
  have hs1 : log (1.024 : ℝ) ≤ 0.024 := by
    have := Real.log_le_sub_one_of_pos (show (0:ℝ) < 1.024 by norm_num)
    linarith
  have hs2 : (0.023 : ℝ) ≤ log 1.024 := by
    have := Real.one_sub_inv_le_log_of_pos (show (0:ℝ) < 1.024 by norm_num)
    refine le_trans (by norm_num) this
  constructor <;> rw [hl] <;> linarith

/-! ### The analysis -/

/-- What is known about a number; `none`: nothing of that sort. -/
structure Err where
  ratio : Option ℚ
  logs : Option (ℚ × ℚ)
  range : Option (ℚ × ℚ × ℚ)
  deriving DecidableEq

def Err.top : Err := ⟨none, none, none⟩

def ratioHolds : Option ℚ → ℝ → ℝ → Prop
  | none, _, _ => True
  | some e, x, y => Ratio e x y

def logHolds : Option (ℚ × ℚ) → ℝ → Prop
  | none, _ => True
  | some p, x => LogIn p.1 p.2 x

def rangeHolds : Option (ℚ × ℚ × ℚ) → ℝ → ℝ → Prop
  | none, _, _ => True
  | some p, x, y => Off p.1 p.2.1 p.2.2 x y

structure Err.holds (i : Err) (x y : ℝ) : Prop where
  ratio : ratioHolds i.ratio x y
  logs : logHolds i.logs x
  range : rangeHolds i.range x y

theorem Err.top_holds (x y : ℝ) : Err.top.holds x y := ⟨trivial, trivial, trivial⟩

/-- Round up to 24 decimals. -/
def up (q : ℚ) : ℚ := mkRat (-((-q.num * 1000000000000000000000000) / q.den)) 1000000000000000000000000

/-- Round down. -/
def dn (q : ℚ) : ℚ := mkRat (q.num * 1000000000000000000000000 / q.den) 1000000000000000000000000

theorem dn_le (q : ℚ) : dn q ≤ q := by
  unfold dn
  rw [Rat.mkRat_eq_div, div_le_iff₀ (by norm_num)]
  have h := Int.ediv_mul_le (q.num * 1000000000000000000000000) (b := (q.den : ℤ)) (by exact_mod_cast q.den_nz)
  have hd : (0 : ℚ) < q.den := by exact_mod_cast q.den_pos
  have h' : ((q.num * 1000000000000000000000000 / (q.den : ℤ) : ℤ) : ℚ) * q.den ≤
      q.num * 1000000000000000000000000 := by exact_mod_cast h
  rw [← le_div_iff₀ hd] at h'
  refine h'.trans (le_of_eq ?_)
  push_cast
  rw [mul_div_right_comm, Rat.num_div_den]

theorem le_up (q : ℚ) : q ≤ up q := by
  have h := dn_le (-q)
  have : up q = -dn (-q) := by
    unfold up dn
    rw [Rat.mkRat_eq_div, Rat.mkRat_eq_div, Rat.neg_num, Rat.neg_den]
    push_cast
    ring
  rw [this]
  linarith

theorem le_up' (q : ℚ) : (q : ℝ) ≤ up q := by exact_mod_cast le_up q

theorem dn_le' (q : ℚ) : (dn q : ℝ) ≤ q := by exact_mod_cast dn_le q

/-! ### Numbers are computed before they are used

Nothing changes; the kernel would otherwise carry unevaluated terms along. -/

def forceNat {α : Type} (n : ℕ) (k : ℕ → α) : α :=
  match n with
  | 0 => k 0
  | m + 1 => k (Nat.succ m)

def forceInt {α : Type} (z : ℤ) (k : ℤ → α) : α :=
  match z with
  | .ofNat n => forceNat n (fun n => k (.ofNat n))
  | .negSucc n => forceNat n (fun n => k (.negSucc n))

def forceRat {α : Type} (q : ℚ) (k : ℚ → α) : α := forceInt q.num fun a => forceNat q.den fun b => k (mkRat a b)

theorem forceNat_eq {α : Type} (n : ℕ) (k : ℕ → α) : forceNat n k = k n := by cases n <;> rfl

theorem forceInt_eq {α : Type} (z : ℤ) (k : ℤ → α) : forceInt z k = k z := by
  cases z with
  | ofNat n => exact forceNat_eq n (fun n => k (.ofNat n))
  | negSucc n => exact forceNat_eq n (fun n => k (.negSucc n))

theorem forceRat_eq {α : Type} (q : ℚ) (k : ℚ → α) : forceRat q k = k q := by
  unfold forceRat
  rw [forceInt_eq, forceNat_eq, Rat.mkRat_self]

/-- A guess of the number of binary digits. -/
def guessBits : ℕ → ℕ → ℕ → ℕ
  | 0, _, acc => acc
  | j + 1, n, acc =>
    if Nat.ble (Nat.pow 2 (Nat.pow 2 j)) n then guessBits j (Nat.div n (Nat.pow 2 (Nat.pow 2 j))) (acc + Nat.pow 2 j)
    else guessBits j n acc

/-- `Nat.log2`, which the kernel computes digit by digit. -/
def bits (n : ℕ) : ℕ := forceNat n fun n => forceNat (guessBits 14 n 0) fun k =>
  if Nat.ble (Nat.pow 2 k) n && Nat.ble (n + 1) (Nat.pow 2 (k + 1)) then k else Nat.log2 n

theorem bits_eq (n : ℕ) : bits n = Nat.log2 n := by
  unfold bits
  rw [forceNat_eq, forceNat_eq]
  split
  · rename_i h
    rw [Bool.and_eq_true, Nat.ble_eq, Nat.ble_eq] at h
    have h1 : 2 ^ guessBits 14 n 0 ≤ n := h.1
    have h2 : n < 2 ^ (guessBits 14 n 0 + 1) := h.2
    have hn : n ≠ 0 := by
      rintro rfl
      exact absurd h1 (not_le.2 (by positivity))
    exact ((Nat.log2_eq_iff hn).2 ⟨h1, h2⟩).symm
  · rfl

/-- Bounds of a logarithm, from the number of bits of the 64th power. -/
def logLo (q : ℚ) : ℚ :=
  forceInt ((bits (Nat.pow q.num.toNat 64) : ℤ) - bits (Nat.pow q.den 64) - 1) fun k =>
    (k : ℚ) * (if 0 ≤ k then 0.6931471 else 0.6931472) / 64

def logHi (q : ℚ) : ℚ :=
  forceInt ((bits (Nat.pow q.num.toNat 64) : ℤ) - bits (Nat.pow q.den 64) + 1) fun k =>
    (k : ℚ) * (if 0 ≤ k then 0.6931472 else 0.6931471) / 64

theorem log2_bounds {n : ℕ} (hn : n ≠ 0) : (Nat.log2 n : ℝ) * log 2 ≤ log n ∧
    log n ≤ ((Nat.log2 n : ℝ) + 1) * log 2 := by
  have hpos : (0 : ℝ) < n := by exact_mod_cast Nat.pos_of_ne_zero hn
  constructor
  · rw [← Real.log_pow]
    refine Real.log_le_log (by positivity) ?_
    exact_mod_cast Nat.log2_self_le hn
  · have : ((Nat.log2 n : ℝ) + 1) * log 2 = log ((2 : ℝ) ^ (Nat.log2 n + 1)) := by
      rw [Real.log_pow]; push_cast; ring
    rw [this]
    refine Real.log_le_log hpos ?_
    exact_mod_cast (Nat.lt_log2_self (n := n)).le

theorem log_rat {q : ℚ} (hq : 0 < q) : (logLo q : ℝ) ≤ log q ∧ log q ≤ logHi q := by
  have hn : 0 < q.num := Rat.num_pos.2 hq
  obtain ⟨n, hn'⟩ := Int.eq_ofNat_of_zero_le hn.le
  have hn0 : n ≠ 0 := by rintro rfl; simp [hn'] at hn
  have hq' : (q : ℝ) = n / q.den := by
    rw [Rat.cast_def, hn']; simp
  have hln : (64 : ℝ) * log q = log ((n ^ 64 : ℕ) : ℝ) - log ((q.den ^ 64 : ℕ) : ℝ) := by
    rw [hq', Real.log_div (by exact_mod_cast hn0) (by exact_mod_cast q.den_nz)]
    push_cast
    rw [Real.log_pow, Real.log_pow]
    push_cast
    ring
  obtain ⟨a1, a2⟩ := log2_bounds (n := n ^ 64) (pow_ne_zero _ hn0)
  obtain ⟨b1, b2⟩ := log2_bounds (n := q.den ^ 64) (pow_ne_zero _ q.den_nz)
  have l1 := Real.log_two_gt_d9
  have l2 := Real.log_two_lt_d9
  have hto : q.num.toNat = n := by rw [hn']; simp
  have aux1 : ∀ k : ℤ, (k : ℝ) * ((if 0 ≤ k then (0.6931471 : ℚ) else 0.6931472 : ℚ) : ℝ) ≤ k * log 2 := by
    intro k
    split
    · rename_i hk
      have : (0 : ℝ) ≤ k := by exact_mod_cast hk
      refine mul_le_mul_of_nonneg_left ?_ this
      push_cast
      linarith
    · rename_i hk
      have : (k : ℝ) ≤ 0 := by exact_mod_cast (not_le.1 hk).le
      refine mul_le_mul_of_nonpos_left ?_ this
      push_cast
      linarith
  have aux2 : ∀ k : ℤ, k * log 2 ≤ (k : ℝ) * ((if 0 ≤ k then (0.6931472 : ℚ) else 0.6931471 : ℚ) : ℝ) := by
    intro k
    split
    · rename_i hk
      have : (0 : ℝ) ≤ k := by exact_mod_cast hk
      refine mul_le_mul_of_nonneg_left ?_ this
      push_cast
      linarith
    · rename_i hk
      have : (k : ℝ) ≤ 0 := by exact_mod_cast (not_le.1 hk).le
      refine mul_le_mul_of_nonpos_left ?_ this
      push_cast
      linarith
  constructor
  · unfold logLo
    rw [forceInt_eq, hto, bits_eq, bits_eq]
    have h := aux1 ((Nat.log2 (n ^ 64) : ℤ) - Nat.log2 (q.den ^ 64) - 1)
    rw [Rat.cast_div, Rat.cast_mul, Rat.cast_intCast, Rat.cast_ofNat, div_le_iff₀ (by norm_num)]
    refine h.trans ?_
    push_cast at a1 a2 b1 b2 hln ⊢
    nlinarith
  · unfold logHi
    rw [forceInt_eq, hto, bits_eq, bits_eq]
    have h := aux2 ((Nat.log2 (n ^ 64) : ℤ) - Nat.log2 (q.den ^ 64) + 1)
    rw [Rat.cast_div, Rat.cast_mul, Rat.cast_intCast, Rat.cast_ofNat, le_div_iff₀ (by norm_num)]
    refine le_trans ?_ h
    push_cast at a1 a2 b1 b2 hln ⊢
    nlinarith

/-- Bounds of an exponential, from those of `exp (1/16)`. -/
def expLo (q : ℚ) : ℚ :=
  if 0 ≤ ⌊q * 16⌋ then mkRat (106449 ^ ⌊q * 16⌋.toNat : ℕ) (100000 ^ ⌊q * 16⌋.toNat)
  else mkRat (10000 ^ (-⌊q * 16⌋).toNat : ℕ) (10645 ^ (-⌊q * 16⌋).toNat)

def expHi (q : ℚ) : ℚ :=
  if 0 ≤ ⌈q * 16⌉ then mkRat (10645 ^ ⌈q * 16⌉.toNat : ℕ) (10000 ^ ⌈q * 16⌉.toNat)
  else mkRat (100000 ^ (-⌈q * 16⌉).toNat : ℕ) (106449 ^ (-⌈q * 16⌉).toNat)

theorem mkRat_pow (a b n : ℕ) : (mkRat (a ^ n : ℕ) (b ^ n) : ℚ) = ((a : ℚ) / b) ^ n := by
  rw [Rat.mkRat_eq_div]
  push_cast
  rw [div_pow]

theorem exp_step_bounds : (1.06449 : ℝ) ≤ exp (1 / 16) ∧ exp (1 / 16 : ℝ) ≤ 1.0645 := by
  have h : exp (1 / 16 : ℝ) ^ 16 = exp 1 := by rw [← Real.exp_nat_mul]; norm_num
  constructor
  · refine le_of_lt (lt_of_pow_lt_pow_left₀ 16 (exp_pos _).le ?_)
    rw [h]
    refine lt_of_lt_of_le ?_ Real.exp_one_gt_d9.le
    norm_num
  · refine le_of_lt (lt_of_pow_lt_pow_left₀ 16 (by norm_num) ?_)
    rw [h]
    refine lt_of_le_of_lt Real.exp_one_lt_d9.le ?_
    norm_num

theorem exp_nat_bounds (n : ℕ) : (1.06449 : ℝ) ^ n ≤ exp (n / 16) ∧ exp ((n : ℝ) / 16) ≤ 1.0645 ^ n := by
  have h : exp ((n : ℝ) / 16) = exp (1 / 16) ^ n := by rw [← Real.exp_nat_mul]; congr 1; ring
  rw [h]
  exact ⟨pow_le_pow_left₀ (by norm_num) exp_step_bounds.1 n, pow_le_pow_left₀ (exp_pos _).le exp_step_bounds.2 n⟩

theorem expLo_pos (q : ℚ) : 0 < expLo q := by
  unfold expLo
  split <;> rw [mkRat_pow] <;> positivity

theorem exp_rat_lo {q : ℚ} {x : ℝ} (h : (q : ℝ) ≤ x) : (expLo q : ℝ) ≤ exp x := by
  have h1 : ((⌊q * 16⌋ : ℤ) : ℝ) / 16 ≤ x := by
    have : ((⌊q * 16⌋ : ℤ) : ℝ) ≤ q * 16 := by exact_mod_cast Int.floor_le (q * 16)
    linarith
  refine le_trans ?_ (exp_le_exp.2 h1)
  unfold expLo
  split
  · rename_i h0
    obtain ⟨n, hn⟩ := Int.eq_ofNat_of_zero_le h0
    rw [hn, mkRat_pow]
    have h := (exp_nat_bounds n).1
    norm_num at h ⊢
    exact h
  · rename_i h0
    obtain ⟨n, hn⟩ := Int.eq_ofNat_of_zero_le (show 0 ≤ -⌊q * 16⌋ by omega)
    rw [hn, show ⌊q * 16⌋ = -(n : ℤ) by omega, mkRat_pow]
    have h := inv_anti₀ (exp_pos _) (exp_nat_bounds n).2
    rw [← exp_neg, ← inv_pow] at h
    norm_num [neg_div] at h ⊢
    exact h

theorem exp_rat_hi {q : ℚ} {x : ℝ} (h : x ≤ (q : ℝ)) : exp x ≤ (expHi q : ℝ) := by
  have h1 : x ≤ ((⌈q * 16⌉ : ℤ) : ℝ) / 16 := by
    have : (q : ℝ) * 16 ≤ ((⌈q * 16⌉ : ℤ) : ℝ) := by exact_mod_cast Int.le_ceil (q * 16)
    linarith
  refine le_trans (exp_le_exp.2 h1) ?_
  unfold expHi
  split
  · rename_i h0
    obtain ⟨n, hn⟩ := Int.eq_ofNat_of_zero_le h0
    rw [hn, mkRat_pow]
    have h := (exp_nat_bounds n).2
    norm_num at h ⊢
    exact h
  · rename_i h0
    obtain ⟨n, hn⟩ := Int.eq_ofNat_of_zero_le (show 0 ≤ -⌈q * 16⌉ by omega)
    rw [hn, show ⌈q * 16⌉ = -(n : ℤ) by omega, mkRat_pow]
    have h := inv_anti₀ (by positivity) (exp_nat_bounds n).1
    rw [← exp_neg, ← inv_pow] at h
    norm_num [neg_div] at h ⊢
    exact h

end Rl
end PyBox
