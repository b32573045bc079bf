import Verif.Rate.ErrorRun

/-!
# Errors of rates that contain photolysis coefficients

A photolysis coefficient has a small error compared with its scale, not compared with itself. Sums and multiples of such
coefficients and of others have an error `e * x + d`.
-/

namespace PyBox
namespace Rl

open Real

/-- `x` is not negative and `y` is off by no more than `e * x + d`. -/
def Mixed (e d x y : ℝ) : Prop := 0 ≤ x ∧ |y - x| ≤ e * x + d

theorem exp_le_two {e : ℝ} (h0 : 0 ≤ e) (h1 : e ≤ 1 / 2) : exp e ≤ 1 + 2 * e := by
  have h := Real.add_one_le_exp (-e)
  rw [Real.exp_neg] at h
  have hp : 0 < 1 - e := by linarith
  have h2 : exp e ≤ (1 - e)⁻¹ := by
    rw [← inv_inv (exp e)]
    exact inv_anti₀ hp (by linarith)
  refine h2.trans ?_
  rw [inv_le_iff_one_le_mul₀ hp]
  nlinarith

theorem Mixed.of_ratio {e x y : ℝ} (h : Ratio e x y) (he : e ≤ 1 / 2) : Mixed (2 * e) 0 x y := by
  obtain ⟨h0, h1, h2, h3⟩ := h
  refine ⟨h1, ?_⟩
  have g1 := exp_le_two h0 he
  have g2 := Real.add_one_le_exp (-e)
  rw [abs_le]
  constructor
  · nlinarith
  · nlinarith

theorem Mixed.add {e d x y e' d' x' y' : ℝ} (h : Mixed e d x y) (h' : Mixed e' d' x' y') :
    Mixed (max e e') (d + d') (x + x') (y + y') := by
  refine ⟨add_nonneg h.1 h'.1, ?_⟩
  have e1 : y + y' - (x + x') = (y - x) + (y' - x') := by ring
  rw [e1]
  refine (abs_add_le _ _).trans ((add_le_add h.2 h'.2).trans ?_)
  have := mul_le_mul_of_nonneg_right (le_max_left e e') h.1
  have := mul_le_mul_of_nonneg_right (le_max_right e e') h'.1
  linarith

theorem Mixed.mul {e d x y c z w b : ℝ} (h : Mixed e d x y) (he : 0 ≤ e) (hd : 0 ≤ d) (h' : Ratio c z w)
    (hc : c ≤ 1 / 2) (hb : z ≤ b) :
    Mixed ((1 + e) * (1 + 2 * c) - 1) (d * b * (1 + 2 * c)) (x * z) (y * w) := by
  obtain ⟨h1, h2⟩ := h
  have hw := h'.nonneg
  obtain ⟨c0, z0, g1, g2⟩ := h'
  have k1 := exp_le_two c0 hc
  have k2 := Real.add_one_le_exp (-c)
  have hw1 : w ≤ z * (1 + 2 * c) := g2.trans (mul_le_mul_of_nonneg_left k1 z0)
  have hw2 : |w - z| ≤ z * (2 * c) := by
    rw [abs_le]; constructor <;> nlinarith
  refine ⟨mul_nonneg h1 z0, ?_⟩
  have e1 : y * w - x * z = (y - x) * w + x * (w - z) := by ring
  rw [e1]
  refine (abs_add_le _ _).trans ?_
  rw [abs_mul, abs_mul, abs_of_nonneg hw, abs_of_nonneg h1]
  have s1 : |y - x| * w ≤ (e * x + d) * (z * (1 + 2 * c)) :=
    mul_le_mul h2 hw1 hw (by positivity)
  have s2 : x * |w - z| ≤ x * (z * (2 * c)) := mul_le_mul_of_nonneg_left hw2 h1
  have s3 : d * z * (1 + 2 * c) ≤ d * b * (1 + 2 * c) :=
    mul_le_mul_of_nonneg_right (mul_le_mul_of_nonneg_left hb hd) (by linarith)
  nlinarith

theorem Mixed.round {e d x y r : ℝ} (h : Mixed e d x y) (hr : ieee .double y r) :
    Mixed (e + 3e-16 * (1 + e)) (d + 3e-16 * d) x r := by
  obtain ⟨h1, h2⟩ := h
  have hr : |r - y| ≤ 2⁻¹ ^ 52 * |y| := hr
  have hu : (2⁻¹ : ℝ) ^ 52 ≤ 3e-16 := by norm_num
  have hy : |y| ≤ x + (e * x + d) := by
    have e1 : y = x + (y - x) := by ring
    rw [e1]
    refine (abs_add_le _ _).trans ?_
    rw [abs_of_nonneg h1]
    linarith
  refine ⟨h1, ?_⟩
  have e1 : r - x = (r - y) + (y - x) := by ring
  rw [e1]
  refine (abs_add_le _ _).trans ?_
  have : |r - y| ≤ 3e-16 * (x + (e * x + d)) := hr.trans (mul_le_mul hu hy (abs_nonneg _) (by norm_num))
  linarith

theorem Mixed.mono {e d x y e' d' : ℝ} (h : Mixed e d x y) (he : e ≤ e') (hd : d ≤ d') : Mixed e' d' x y :=
  ⟨h.1, h.2.trans (add_le_add (mul_le_mul_of_nonneg_right he h.1) hd)⟩

/-! ### The analysis -/

/-- Absolute errors of some variables. -/
abbrev AbsSt := List (Var × ℚ)

def AbsSt.get : AbsSt → Var → Option ℚ
  | [], _ => none
  | p :: s, v => if p.1 = v then some p.2 else AbsSt.get s v

def AbsSt.Sound (a : AbsSt) (env env' : Vals) : Prop :=
  ∀ v d, a.get v = some d → 0 ≤ env v ∧ |env' v - env v| ≤ d

/-- From a small ratio. -/
def mixRatio (i : Err) : Option (ℚ × ℚ) :=
  match i.ratio with
  | some e => if 0 ≤ e ∧ e ≤ 1 / 2 then some (2 * e, 0) else none
  | none => none

def mixAdd : Option (ℚ × ℚ) → Option (ℚ × ℚ) → Option (ℚ × ℚ)
  | some p, some q => some (max p.1 q.1, p.2 + q.2)
  | _, _ => none

def mixMul (p : Option (ℚ × ℚ)) (i : Err) : Option (ℚ × ℚ) :=
  match p, i.ratio, i.range with
  | some p, some c, some (_, b, _) =>
    if 0 ≤ p.1 ∧ 0 ≤ p.2 ∧ c ≤ 1 / 2 then some ((1 + p.1) * (1 + 2 * c) - 1, p.2 * b * (1 + 2 * c)) else none
  | _, _, _ => none

def mixRound : Option (ℚ × ℚ) → Option (ℚ × ℚ)
  | some p => some (p.1 + 3e-16 * (1 + p.1), p.2 + 3e-16 * p.2)
  | none => none

def orElse' : Option (ℚ × ℚ) → (Unit → Option (ℚ × ℚ)) → Option (ℚ × ℚ)
  | some p, _ => some p
  | none, k => k ()

def SK.isReal : SK → Bool
  | .real _ => true
  | _ => false

/-- The errors of an expression, relative and absolute. -/
def mixOf (s : ErrSt) (a : AbsSt) : KEx → Option (ℚ × ℚ)
  | .var v => orElse' ((a.get v).map fun d => (0, d)) fun _ => mixRatio (s.get v)
  | .bin .add x y =>
    orElse' (mixRatio (errOf s (.bin .add x y))) fun _ =>
      match kindOf x, kindOf y with
      | some kx, some ky =>
        if skCommon kx ky = some .double && kx.isReal && ky.isReal then mixRound (mixAdd (mixOf s a x) (mixOf s a y))
        else none
      | _, _ => none
  | .bin .mul x y =>
    orElse' (mixRatio (errOf s (.bin .mul x y))) fun _ =>
      match kindOf x, kindOf y with
      | some kx, some ky =>
        if skCommon kx ky = some .double then
          orElse' (if kx.isReal then mixRound (mixMul (mixOf s a x) (convErr ky (errOf s y))) else none) fun _ =>
            if ky.isReal then mixRound (mixMul (mixOf s a y) (convErr kx (errOf s x))) else none
        else none
      | _, _ => none
  | e => mixRatio (errOf s e)

def mixHolds : Option (ℚ × ℚ) → ℝ → ℝ → Prop
  | none, _, _ => True
  | some p, x, y => Mixed p.1 p.2 x y

theorem half_cast {e : ℚ} (h : e ≤ 1 / 2) : (e : ℝ) ≤ 1 / 2 := by
  have : (e : ℝ) ≤ ((1 / 2 : ℚ) : ℝ) := by exact_mod_cast h
  refine this.trans (le_of_eq ?_)
  norm_num

theorem mixRatio_holds {i : Err} {x y : ℝ} (h : i.holds x y) : mixHolds (mixRatio i) x y := by
  unfold mixRatio
  have h1 := h.ratio
  split
  · rename_i e he
    rw [he] at h1
    split
    · rename_i hb
      have := Mixed.of_ratio h1 (half_cast hb.2)
      show Mixed ((2 * e : ℚ) : ℝ) ((0 : ℚ) : ℝ) x y
      push_cast
      exact this
    · trivial
  · trivial

theorem mixAdd_holds {p q : Option (ℚ × ℚ)} {x y x' y' : ℝ} (h : mixHolds p x y) (h' : mixHolds q x' y') :
    mixHolds (mixAdd p q) (x + x') (y + y') := by
  cases p with
  | none => trivial
  | some p =>
    cases q with
    | none => trivial
    | some q =>
      have := Mixed.add h h'
      show Mixed ((max p.1 q.1 : ℚ) : ℝ) ((p.2 + q.2 : ℚ) : ℝ) _ _
      push_cast
      exact this

theorem mixMul_holds {p : Option (ℚ × ℚ)} {i : Err} {x y z w : ℝ} (h : mixHolds p x y) (h' : i.holds z w) :
    mixHolds (mixMul p i) (x * z) (y * w) := by
  unfold mixMul
  have h1 := h'.ratio
  have h2 := h'.range
  split
  · rename_i p c lo b d hc hb
    rw [hc] at h1
    rw [hb] at h2
    split
    · rename_i hp
      obtain ⟨p1, p2, p3⟩ := hp
      have := Mixed.mul h (by exact_mod_cast p1) (by exact_mod_cast p2) h1
        (half_cast p3) h2.2.1
      show Mixed (((1 + p.1) * (1 + 2 * c) - 1 : ℚ) : ℝ) ((p.2 * b * (1 + 2 * c) : ℚ) : ℝ) _ _
      push_cast
      exact this
    · trivial
  · trivial

theorem mixRound_holds {p : Option (ℚ × ℚ)} {x y r : ℝ} (h : mixHolds p x y) (hr : ieee .double y r) :
    mixHolds (mixRound p) x r := by
  cases p with
  | none => trivial
  | some p =>
    have := Mixed.round h hr
    show Mixed ((p.1 + 3e-16 * (1 + p.1) : ℚ) : ℝ) ((p.2 + 3e-16 * p.2 : ℚ) : ℝ) _ _
    push_cast
    exact this

theorem orElse_holds {p : Option (ℚ × ℚ)} {k : Unit → Option (ℚ × ℚ)} {x y : ℝ} (h : mixHolds p x y)
    (hk : mixHolds (k ()) x y) : mixHolds (orElse' p k) x y := by
  cases p with
  | none => exact hk
  | some p => exact h

theorem convert_real {k : SK} {p : Prec} {v : KVal} {x : ℝ} (hk : k.Match v) (hr : k.isReal = true)
    (hc : Convert ieee p v x) : x = v.toReal := by
  cases k with
  | real q =>
    obtain ⟨w, rfl⟩ := hk
    exact hc
  | const z => cases hr
  | whole => cases hr

theorem mixOf_holds {s : ErrSt} {a : AbsSt} {env env' : Vals} (hs : s.Sound env env') (ha : a.Sound env env') :
    ∀ {e : KEx} {r : KVal}, Ev ieee env' e r → mixHolds (mixOf s a e) (e.erase.val env) r.toReal := by
  intro e
  induction e with
  | num q k => intro r h; exact mixRatio_holds (errOf_holds hs h)
  | neg a ih => intro r h; exact mixRatio_holds (errOf_holds hs h)
  | call f a ih => intro r h; exact mixRatio_holds (errOf_holds hs h)
  | var v =>
    intro r h
    cases h
    refine orElse_holds ?_ (mixRatio_holds (hs v))
    cases hv : a.get v with
    | none => trivial
    | some d =>
      obtain ⟨h1, h2⟩ := ha v d hv
      show Mixed ((0 : ℚ) : ℝ) (d : ℝ) (env v) (env' v)
      exact ⟨h1, by push_cast; linarith⟩
  | bin o x y ihx ihy =>
    intro r h
    have hgen := mixRatio_holds (errOf_holds hs h)
    cases o with
    | sub => exact hgen
    | div => exact hgen
    | pow => exact hgen
    | add =>
      refine orElse_holds hgen ?_
      split
      · rename_i kx ky hkx hky
        split
        · rename_i hc
          rw [Bool.and_eq_true, Bool.and_eq_true, decide_eq_true_eq] at hc
          obtain ⟨⟨hc, r1⟩, r2⟩ := hc
          cases h with
          | binInt g1 g2 =>
            have := match_common (kind_sound hkx g1) (kind_sound hky g2)
            rw [hc] at this
            cases this
          | binReal g1 g2 g3 g4 g5 g6 g7 =>
            have m1 := kind_sound hkx g1
            have m2 := kind_sound hky g2
            have := match_common m1 m2
            rw [hc, g3] at this
            obtain rfl := Option.some.inj this
            refine mixRound_holds (mixAdd_holds (ihx g1) (ihy g2)) ?_
            rw [← convert_real m1 r1 g4, ← convert_real m2 r2 g5]
            exact g7
        · trivial
      · trivial
    | mul =>
      refine orElse_holds hgen ?_
      split
      · rename_i kx ky hkx hky
        split
        · rename_i hc
          cases h with
          | binInt g1 g2 =>
            have := match_common (kind_sound hkx g1) (kind_sound hky g2)
            rw [hc] at this
            cases this
          | binReal g1 g2 g3 g4 g5 g6 g7 =>
            have m1 := kind_sound hkx g1
            have m2 := kind_sound hky g2
            have := match_common m1 m2
            rw [hc, g3] at this
            obtain rfl := Option.some.inj this
            refine orElse_holds ?_ ?_
            · split
              · rename_i r1
                have := mixMul_holds (ihx g1) (convert_err m2 (errOf_holds hs g2) g5)
                rw [← convert_real m1 r1 g4] at this
                exact mixRound_holds this g7
              · trivial
            · split
              · rename_i r2
                have := mixMul_holds (ihy g2) (convert_err m1 (errOf_holds hs g1) g4)
                rw [← convert_real m2 r2 g5] at this
                have h1 := mul_comm (y.erase.val env) (x.erase.val env)
                rw [h1] at this
                refine mixRound_holds this ?_
                rw [mul_comm]
                exact g7
              · trivial
        · trivial
      · trivial

end Rl
end PyBox
