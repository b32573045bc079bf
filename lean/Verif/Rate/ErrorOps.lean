import Verif.Rate.Errors

/-!
# The analysis of rounding errors: operations
-/

namespace PyBox
namespace Rl

open Real

/-! ### Numbers are computed before they are used -/

def forceErr {α : Type} (i : Err) (k : Err → α) : α :=
  let withRatio (r : Option ℚ) : α :=
    let withLogs (g : Option (ℚ × ℚ)) : α :=
      match i.range with
      | none => k ⟨r, g, none⟩
      | some (l, h, d) => forceRat l fun l => forceRat h fun h => forceRat d fun d => k ⟨r, g, some (l, h, d)⟩
    match i.logs with
    | none => withLogs none
    | some (a, b) => forceRat a fun a => forceRat b fun b => withLogs (some (a, b))
  match i.ratio with
  | none => withRatio none
  | some e => forceRat e fun e => withRatio (some e)

theorem forceErr_eq {α : Type} (i : Err) (k : Err → α) : forceErr i k = k i := by
  obtain ⟨r, g, w⟩ := i
  unfold forceErr
  rcases r with - | e <;> rcases g with - | ⟨a, b⟩ <;> rcases w with - | ⟨l, h, d⟩ <;> simp only [forceRat_eq]

/-! ### Combining what is known -/

/-- What follows from the bounds for the logarithm, and the other way round; everything rounded to 24 decimals. -/
def tidyLogs (i : Err) : Option (ℚ × ℚ) :=
  match i.range with
  | some (l, h, _) =>
    if 0 < l then
      match i.logs with
      | some (a, b) => some (max a (logLo l), min b (logHi h))
      | none => some (logLo l, logHi h)
    else i.logs
  | none => i.logs

def tidyRatio (i : Err) : Option ℚ :=
  match i.range with
  | some (l, _, d) =>
    if 0 < l ∧ d ≤ l / 2 then
      match i.ratio with
      | some e => some (min e (2 * d / l))
      | none => some (2 * d / l)
    else i.ratio
  | none => i.ratio

def ownRange (i : Err) : Option (ℚ × ℚ × ℚ) :=
  match i.logs, i.ratio with
  | some (a, b), some e => if e ≤ 1 then some (expLo a, expHi b, expHi b * (2 * e)) else none
  | _, _ => none

def meet : Option (ℚ × ℚ × ℚ) → Option (ℚ × ℚ × ℚ) → Option (ℚ × ℚ × ℚ)
  | some p, some q => some (max p.1 q.1, min p.2.1 q.2.1, min p.2.2 q.2.2)
  | some p, none => some p
  | none, q => q

def tidyRange (i : Err) : Option (ℚ × ℚ × ℚ) := meet i.range (ownRange i)

def tidy (i : Err) : Err :=
  ⟨(tidyRatio i).map up, (tidyLogs i).map (fun p => (dn p.1, up p.2)),
    (tidyRange i).map (fun p => (dn p.1, up p.2.1, up p.2.2))⟩

theorem tidyLogs_holds {i : Err} {x y : ℝ} (h : i.holds x y) : logHolds (tidyLogs i) x := by
  unfold tidyLogs
  have hr := h.range
  have hg := h.logs
  split
  · rename_i l hh d hi
    rw [hi] at hr
    have hr : Off l hh d x y := hr
    split
    · rename_i hl
      have hl' : (0 : ℝ) < l := by exact_mod_cast hl
      have hx : 0 < x := hl'.trans_le hr.1
      have hh0 : (0 : ℚ) < hh := by
        have : (0 : ℝ) < hh := hx.trans_le hr.2.1
        exact_mod_cast this
      have k1 : (logLo l : ℝ) ≤ log x := (log_rat hl).1.trans (log_le_log hl' hr.1)
      have k2 : log x ≤ (logHi hh : ℝ) := (log_le_log hx hr.2.1).trans (log_rat hh0).2
      split
      · rename_i a b hl2
        rw [hl2] at hg
        have hg : LogIn a b x := hg
        refine ⟨hx, ?_, ?_⟩
        · show ((max a (logLo l) : ℚ) : ℝ) ≤ log x
          push_cast
          exact max_le hg.2.1 k1
        · show log x ≤ ((min b (logHi hh) : ℚ) : ℝ)
          push_cast
          exact le_min hg.2.2 k2
      · exact ⟨hx, k1, k2⟩
    · exact hg
  · exact hg

theorem tidyRatio_holds {i : Err} {x y : ℝ} (h : i.holds x y) : ratioHolds (tidyRatio i) x y := by
  unfold tidyRatio
  have hr := h.range
  have hg := h.ratio
  split
  · rename_i l hh d hi
    rw [hi] at hr
    have hr : Off l hh d x y := hr
    split
    · rename_i hl
      have hl' : (0 : ℝ) < l := by exact_mod_cast hl.1
      have hd' : (d : ℝ) ≤ l / 2 := by exact_mod_cast hl.2
      have k := Ratio.of_off hl' hd' hr
      split
      · rename_i e he
        rw [he] at hg
        have hg : Ratio e x y := hg
        show Ratio ((min e (2 * d / l) : ℚ) : ℝ) x y
        push_cast
        rcases min_cases (e : ℝ) (2 * d / l) with ⟨c, -⟩ | ⟨c, -⟩ <;> rw [c]
        · exact hg
        · exact k
      · show Ratio ((2 * d / l : ℚ) : ℝ) x y
        push_cast
        exact k
    · exact hg
  · exact hg

theorem ownRange_holds {i : Err} {x y : ℝ} (h : i.holds x y) : rangeHolds (ownRange i) x y := by
  unfold ownRange
  split
  · rename_i a b e hl he
    have hl' := h.logs
    have he' := h.ratio
    rw [hl] at hl'
    rw [he] at he'
    have hl' : LogIn a b x := hl'
    have he' : Ratio e x y := he'
    split
    · rename_i h1
      have hlo := exp_rat_lo hl'.2.1
      have hhi := exp_rat_hi hl'.2.2
      rw [exp_log hl'.1] at hlo hhi
      refine ⟨hlo, hhi, ?_⟩
      show |y - x| ≤ ((expHi b * (2 * e) : ℚ) : ℝ)
      push_cast
      have h1' : (e : ℝ) ≤ 1 := by exact_mod_cast h1
      obtain ⟨k0, k1, k2, k3⟩ := he'
      have e1 := Real.abs_exp_sub_one_le (x := (e : ℝ)) (by rw [abs_of_nonneg k0]; exact h1')
      have e2 := Real.abs_exp_sub_one_le (x := -(e : ℝ)) (by rw [abs_neg, abs_of_nonneg k0]; exact h1')
      rw [abs_of_nonneg k0] at e1
      rw [abs_neg, abs_of_nonneg k0] at e2
      have f1 := (abs_le.1 e1).2
      have f2 := (abs_le.1 e2).1
      have hm := mul_le_mul_of_nonneg_right hhi (show (0:ℝ) ≤ 2 * e by linarith)
      have g1 := mul_le_mul_of_nonneg_left f1 k1
      have g2 := mul_le_mul_of_nonneg_left f2 k1
      rw [abs_le]
      constructor <;> nlinarith
    · trivial
  · trivial

theorem meet_holds {p q : Option (ℚ × ℚ × ℚ)} {x y : ℝ} (h : rangeHolds p x y) (k : rangeHolds q x y) :
    rangeHolds (meet p q) x y := by
  cases p with
  | none => exact k
  | some p =>
    cases q with
    | none => exact h
    | some q =>
      have h : Off p.1 p.2.1 p.2.2 x y := h
      have k : Off q.1 q.2.1 q.2.2 x y := k
      refine ⟨?_, ?_, ?_⟩ <;> dsimp only <;> push_cast
      · exact max_le h.1 k.1
      · exact le_min h.2.1 k.2.1
      · exact le_min h.2.2 k.2.2

theorem tidyRange_holds {i : Err} {x y : ℝ} (h : i.holds x y) : rangeHolds (tidyRange i) x y :=
  meet_holds h.range (ownRange_holds h)

theorem tidy_holds {i : Err} {x y : ℝ} (h : i.holds x y) : (tidy i).holds x y := by
  have h1 := tidyRatio_holds h
  have h2 := tidyLogs_holds h
  have h3 := tidyRange_holds h
  unfold tidy
  refine ⟨?_, ?_, ?_⟩
  · dsimp only
    cases he : tidyRatio i with
    | none => trivial
    | some e =>
      rw [he] at h1
      exact Ratio.mono h1 (le_up' e)
  · dsimp only
    cases he : tidyLogs i with
    | none => trivial
    | some p =>
      rw [he] at h2
      have h2 : LogIn p.1 p.2 x := h2
      exact ⟨h2.1, (dn_le' _).trans h2.2.1, h2.2.2.trans (le_up' _)⟩
  · dsimp only
    cases he : tidyRange i with
    | none => trivial
    | some p =>
      rw [he] at h3
      have h3 : Off p.1 p.2.1 p.2.2 x y := h3
      exact ⟨(dn_le' _).trans h3.1, h3.2.1.trans (le_up' _), h3.2.2.trans (le_up' _)⟩

/-! ### Rounding the result -/

def finishRatio (p : Prec) (i : Err) : Option ℚ :=
  match p, i.ratio, i.logs with
  | .double, some e, _ => some (e + 3e-16)
  | .single, some e, some (a, b) =>
    if b + e ≤ 87 then
      if -69 ≤ a - e then some (e + 6e-8) else if -88 ≤ a - e then some (e + 2e-7) else none
    else none
  | _, _, _ => none

def finishRange (p : Prec) (i : Err) : Option (ℚ × ℚ × ℚ) :=
  match p, i.range with
  | .double, some (l, h, d) => some (l, h, d + 3e-16 * (max |l| |h| + d))
  | .single, some (l, h, d) =>
    if max |l| |h| + d ≤ 100000000000000000000000000000000000000 then some (l, h, d + 6e-8 * (max |l| |h| + d) + 1e-45) else none
  | _, none => none

def finish (p : Prec) (i : Err) : Err := ⟨finishRatio p i, i.logs, finishRange p i⟩

theorem finish_holds {p : Prec} {i : Err} {x z r : ℝ} (h : i.holds x z) (hr : ieee p z r) : (finish p i).holds x r := by
  refine ⟨?_, h.logs, ?_⟩
  · show ratioHolds (finishRatio p i) x r
    have h1 := h.ratio
    have h2 := h.logs
    unfold finishRatio
    split
    · rename_i e he
      rw [he] at h1
      have h1 : Ratio e x z := h1
      have := h1.trans (round_double h1.nonneg hr)
      show Ratio ((e + 3e-16 : ℚ) : ℝ) x r
      refine this.mono ?_
      push_cast
      exact le_rfl
    · rename_i e a b he hl
      rw [he] at h1
      rw [hl] at h2
      have h1 : Ratio e x z := h1
      have h2 : LogIn a b x := h2
      have hz := h1.pos h2.1
      obtain ⟨g1, g2⟩ := abs_le.1 (h1.log h2.1)
      split
      · rename_i hb
        have hb' : (b : ℝ) + e ≤ 87 := by exact_mod_cast hb
        have hz1 : z ≤ 10 ^ 38 := by
          rw [← exp_log hz]
          exact (exp_le_exp.2 (by linarith [h2.2.2])).trans exp_87
        split
        · rename_i ha
          have ha' : (-69 : ℝ) ≤ a - e := by exact_mod_cast ha
          have hz2 : (10 : ℝ) ^ (-30 : ℤ) ≤ z := by
            rw [← exp_log hz]
            exact exp_neg_69.trans (exp_le_exp.2 (by linarith [h2.2.1]))
          have := h1.trans (round_single hz2 hz1 hr)
          show Ratio ((e + 6e-8 : ℚ) : ℝ) x r
          refine this.mono ?_
          push_cast
          exact le_rfl
        · split
          · rename_i ha
            have ha' : (-88 : ℝ) ≤ a - e := by exact_mod_cast ha
            have hz2 : (1.7e38 : ℝ)⁻¹ ≤ z := by
              rw [← exp_log hz]
              exact exp_neg_88.trans (exp_le_exp.2 (by linarith [h2.2.1]))
            have := h1.trans (round_small hz2 hz1 hr)
            show Ratio ((e + 2e-7 : ℚ) : ℝ) x r
            refine this.mono ?_
            push_cast
            exact le_rfl
          · trivial
      · trivial
    · trivial
  · show rangeHolds (finishRange p i) x r
    have h1 := h.range
    unfold finishRange
    split
    · rename_i l hh d hi
      rw [hi] at h1
      have h1 : Off l hh d x z := h1
      refine ⟨h1.1, h1.2.1, ?_⟩
      show |r - x| ≤ ((d + 3e-16 * (max |l| |hh| + d) : ℚ) : ℝ)
      have hr' : |r - z| ≤ 2⁻¹ ^ 52 * |z| := hr
      have hz := h1.abs_le'
      have h0 : (0 : ℝ) ≤ max |(l : ℝ)| |(hh : ℝ)| + d := (abs_nonneg _).trans hz
      have hk : (2⁻¹ : ℝ) ^ 52 * |z| ≤ 3e-16 * (max |(l : ℝ)| |(hh : ℝ)| + d) :=
        mul_le_mul (by norm_num) hz (abs_nonneg _) (by norm_num)
      have := abs_sub_le r z x
      push_cast
      linarith [h1.2.2]
    · rename_i l hh d hi
      rw [hi] at h1
      have h1 : Off l hh d x z := h1
      split
      · rename_i hb
        have hb' : max |(l : ℝ)| |(hh : ℝ)| + d ≤ 10 ^ 38 := by norm_num; exact_mod_cast hb
        refine ⟨h1.1, h1.2.1, ?_⟩
        show |r - x| ≤ ((d + 6e-8 * (max |l| |hh| + d) + 1e-45 : ℚ) : ℝ)
        have hz := h1.abs_le'
        have hr' : |r - z| ≤ 2⁻¹ ^ 24 * |z| + 2⁻¹ ^ 150 := hr (hz.trans hb')
        have h0 : (0 : ℝ) ≤ max |(l : ℝ)| |(hh : ℝ)| + d := (abs_nonneg _).trans hz
        have hk : (2⁻¹ : ℝ) ^ 24 * |z| ≤ 6e-8 * (max |(l : ℝ)| |(hh : ℝ)| + d) :=
          mul_le_mul (by norm_num) hz (abs_nonneg _) (by norm_num)
        have h3 : (2⁻¹ : ℝ) ^ 150 ≤ 1e-45 := by norm_num
        have := abs_sub_le r z x
        push_cast
        linarith [h1.2.2]
      · trivial
    · trivial

/-! ### Numbers -/

def exactNum (q : ℚ) : Err :=
  ⟨if 0 ≤ q then some 0 else none, if 0 < q then some (logLo q, logHi q) else none, some (q, q, 0)⟩

theorem exactNum_holds (q : ℚ) : (exactNum q).holds q q := by
  unfold exactNum
  refine ⟨?_, ?_, ?_⟩
  · dsimp only
    split
    · rename_i h
      show Ratio ((0 : ℚ) : ℝ) q q
      rw [Rat.cast_zero]
      exact Ratio.refl (by exact_mod_cast h)
    · trivial
  · dsimp only
    split
    · rename_i h
      exact ⟨by exact_mod_cast h, log_rat h⟩
    · trivial
  · refine ⟨le_rfl, le_rfl, ?_⟩
    show |(q : ℝ) - q| ≤ ((0 : ℚ) : ℝ)
    simp

/-- A number with few binary digits. -/
def isExact (p : Prec) (q : ℚ) : Bool :=
  decide (q.den = 2 ^ Nat.log2 q.den ∧ Nat.log2 q.den ≤ 100 ∧ q.num.natAbs ≤ 2 ^ p.bits)

theorem isExact_exact {p : Prec} {q : ℚ} (h : isExact p q = true) : Exact p q := by
  unfold isExact at h
  rw [decide_eq_true_eq] at h
  refine ⟨q.num, -(Nat.log2 q.den : ℤ), by rw [Int.abs_eq_natAbs]; exact_mod_cast h.2.2, ?_, ?_⟩
  · rw [abs_neg, Nat.abs_cast]
    exact_mod_cast h.2.1
  · rw [zpow_neg, zpow_natCast]
    conv_lhs => rw [← Rat.num_div_den q]
    rw [div_eq_mul_inv]
    congr 2
    conv_lhs => rw [h.1]
    push_cast
    rfl

/-! ### Operations without rounding -/

def negErr (i : Err) : Err := ⟨none, none, i.range.map (fun p => (-p.2.1, -p.1, p.2.2))⟩

theorem negErr_holds {i : Err} {x y : ℝ} (h : i.holds x y) : (negErr i).holds (-x) (-y) := by
  refine ⟨trivial, trivial, ?_⟩
  unfold negErr
  dsimp only
  have hr := h.range
  cases hi : i.range with
  | none => trivial
  | some p =>
    rw [hi] at hr
    have := Off.neg hr
    show Off ((-p.2.1 : ℚ) : ℝ) ((-p.1 : ℚ) : ℝ) p.2.2 (-x) (-y)
    push_cast
    exact this

def both {α β : Type} (f : α → α → β) : Option α → Option α → Option β
  | some a, some b => some (f a b)
  | _, _ => none

def addErr (i j : Err) : Err :=
  ⟨both max i.ratio j.ratio, both (fun p q => (max p.1 q.1, max p.2 q.2 + 0.7)) i.logs j.logs,
    both (fun p q => (p.1 + q.1, p.2.1 + q.2.1, p.2.2 + q.2.2)) i.range j.range⟩

theorem addErr_holds {i j : Err} {x y x' y' : ℝ} (h : i.holds x y) (k : j.holds x' y') :
    (addErr i j).holds (x + x') (y + y') := by
  obtain ⟨r, l, g⟩ := i
  obtain ⟨r', l', g'⟩ := j
  obtain ⟨h1, h2, h3⟩ := h
  obtain ⟨k1, k2, k3⟩ := k
  unfold addErr
  refine ⟨?_, ?_, ?_⟩
  · rcases r with - | r <;> rcases r' with - | r' <;> try trivial
    show Ratio ((max r r' : ℚ) : ℝ) _ _
    push_cast
    exact Ratio.add h1 k1
  · rcases l with - | l <;> rcases l' with - | l' <;> try trivial
    show LogIn ((max l.1 l'.1 : ℚ) : ℝ) ((max l.2 l'.2 + 0.7 : ℚ) : ℝ) _
    push_cast
    exact LogIn.add h2 k2
  · rcases g with - | g <;> rcases g' with - | g' <;> try trivial
    show Off ((g.1 + g'.1 : ℚ) : ℝ) ((g.2.1 + g'.2.1 : ℚ) : ℝ) ((g.2.2 + g'.2.2 : ℚ) : ℝ) _ _
    push_cast
    exact Off.add h3 k3

def subErr (i j : Err) : Err :=
  ⟨none, none, both (fun p q => (p.1 - q.2.1, p.2.1 - q.1, p.2.2 + q.2.2)) i.range j.range⟩

theorem subErr_holds {i j : Err} {x y x' y' : ℝ} (h : i.holds x y) (k : j.holds x' y') :
    (subErr i j).holds (x - x') (y - y') := by
  obtain ⟨r, l, g⟩ := i
  obtain ⟨r', l', g'⟩ := j
  obtain ⟨h1, h2, h3⟩ := h
  obtain ⟨k1, k2, k3⟩ := k
  unfold subErr
  refine ⟨trivial, trivial, ?_⟩
  rcases g with - | g <;> rcases g' with - | g' <;> try trivial
  show Off ((g.1 - g'.2.1 : ℚ) : ℝ) ((g.2.1 - g'.1 : ℚ) : ℝ) ((g.2.2 + g'.2.2 : ℚ) : ℝ) _ _
  push_cast
  exact Off.sub h3 k3

/-- The corners of a product. -/
def boxLo (l h l' h' : ℚ) : ℚ := min (min (l * l') (l * h')) (min (h * l') (h * h'))
def boxHi (l h l' h' : ℚ) : ℚ := max (max (l * l') (l * h')) (max (h * l') (h * h'))

def mulRange (p q : ℚ × ℚ × ℚ) : ℚ × ℚ × ℚ :=
  (boxLo p.1 p.2.1 q.1 q.2.1, boxHi p.1 p.2.1 q.1 q.2.1,
    max |p.1| |p.2.1| * q.2.2 + (max |q.1| |q.2.1| + q.2.2) * p.2.2)

theorem mulRange_off {p q : ℚ × ℚ × ℚ} {x y x' y' : ℝ} (h : rangeHolds (some p) x y) (k : rangeHolds (some q) x' y') :
    rangeHolds (some (mulRange p q)) (x * x') (y * y') := by
  have := Off.mul (show Off p.1 p.2.1 p.2.2 x y from h) (show Off q.1 q.2.1 q.2.2 x' y' from k)
  show Off ((boxLo p.1 p.2.1 q.1 q.2.1 : ℚ) : ℝ) ((boxHi p.1 p.2.1 q.1 q.2.1 : ℚ) : ℝ)
    ((max |p.1| |p.2.1| * q.2.2 + (max |q.1| |q.2.1| + q.2.2) * p.2.2 : ℚ) : ℝ) _ _
  unfold boxLo boxHi
  push_cast
  exact this

def mulErr (i j : Err) : Err :=
  ⟨both (· + ·) i.ratio j.ratio, both (fun p q => (p.1 + q.1, p.2 + q.2)) i.logs j.logs,
    both mulRange i.range j.range⟩

theorem mulErr_holds {i j : Err} {x y x' y' : ℝ} (h : i.holds x y) (k : j.holds x' y') :
    (mulErr i j).holds (x * x') (y * y') := by
  obtain ⟨r, l, g⟩ := i
  obtain ⟨r', l', g'⟩ := j
  obtain ⟨h1, h2, h3⟩ := h
  obtain ⟨k1, k2, k3⟩ := k
  unfold mulErr
  refine ⟨?_, ?_, ?_⟩
  · rcases r with - | r <;> rcases r' with - | r' <;> try trivial
    show Ratio ((r + r' : ℚ) : ℝ) _ _
    push_cast
    exact Ratio.mul h1 k1
  · rcases l with - | l <;> rcases l' with - | l' <;> try trivial
    show LogIn ((l.1 + l'.1 : ℚ) : ℝ) ((l.2 + l'.2 : ℚ) : ℝ) _
    push_cast
    exact LogIn.mul h2 k2
  · rcases g with - | g <;> rcases g' with - | g' <;> try trivial
    exact mulRange_off h3 k3

def invRange (p : ℚ × ℚ × ℚ) : Option (ℚ × ℚ × ℚ) :=
  if 0 < p.1 ∧ p.2.2 < p.1 then some (p.2.1⁻¹, p.1⁻¹, p.2.2 / (p.1 * (p.1 - p.2.2))) else none

theorem invRange_off {p : ℚ × ℚ × ℚ} {x y : ℝ} (h : rangeHolds (some p) x y) :
    rangeHolds (invRange p) x⁻¹ y⁻¹ := by
  unfold invRange
  split
  · rename_i hp
    have h1 : (0 : ℝ) < p.1 := by exact_mod_cast hp.1
    have h2 : (p.2.2 : ℝ) < p.1 := by exact_mod_cast hp.2
    have := Off.inv (show Off p.1 p.2.1 p.2.2 x y from h) h1 h2
    show Off ((p.2.1⁻¹ : ℚ) : ℝ) ((p.1⁻¹ : ℚ) : ℝ) ((p.2.2 / (p.1 * (p.1 - p.2.2)) : ℚ) : ℝ) _ _
    push_cast
    exact this
  · trivial

def divErr (i j : Err) : Err :=
  ⟨both (· + ·) i.ratio j.ratio, both (fun p q => (p.1 - q.2, p.2 - q.1)) i.logs j.logs,
    both mulRange i.range (j.range.bind invRange)⟩

theorem divErr_holds {i j : Err} {x y x' y' : ℝ} (h : i.holds x y) (k : j.holds x' y') :
    (divErr i j).holds (x / x') (y / y') := by
  obtain ⟨r, l, g⟩ := i
  obtain ⟨r', l', g'⟩ := j
  obtain ⟨h1, h2, h3⟩ := h
  obtain ⟨k1, k2, k3⟩ := k
  unfold divErr
  refine ⟨?_, ?_, ?_⟩
  · rcases r with - | r <;> rcases r' with - | r' <;> try trivial
    show Ratio ((r + r' : ℚ) : ℝ) _ _
    push_cast
    exact Ratio.div h1 k1
  · rcases l with - | l <;> rcases l' with - | l' <;> try trivial
    show LogIn ((l.1 - l'.2 : ℚ) : ℝ) ((l.2 - l'.1 : ℚ) : ℝ) _
    push_cast
    exact LogIn.div h2 k2
  · rcases g with - | g <;> rcases g' with - | g' <;> try trivial
    show rangeHolds (both mulRange (some g) (invRange g')) (x / x') (y / y')
    have := invRange_off k3
    rcases hi : invRange g' with - | q
    · trivial
    · rw [hi] at this
      rw [div_eq_mul_inv, div_eq_mul_inv]
      exact mulRange_off h3 this

def powRatio (i j : Err) : Option ℚ :=
  match i.ratio, i.logs, j.range with
  | some e, some (a, b), some (l, h, d) => some ((max |l| |h| + d) * e + d * max |a| |b|)
  | _, _, _ => none

def powLogs (i j : Err) : Option (ℚ × ℚ) :=
  match i.logs, j.range with
  | some (a, b), some (l, h, _) => some (boxLo l h a b, boxHi l h a b)
  | _, _ => none

/-- Squares. -/
def powRange (i j : Err) : Option (ℚ × ℚ × ℚ) :=
  match i.range with
  | some (l, h, d) =>
    if j.range = some (2, 2, 0) then
      some (if 0 ≤ l then l ^ 2 else if h ≤ 0 then h ^ 2 else 0, max |l| |h| ^ 2, d * (2 * max |l| |h| + d))
    else none
  | none => none

def powErr (i j : Err) : Err := ⟨powRatio i j, powLogs i j, powRange i j⟩

theorem powErr_holds {i j : Err} {x y x' y' : ℝ} (h : i.holds x y) (k : j.holds x' y') :
    (powErr i j).holds (x ^ x') (y ^ y') := by
  have h1 := h.ratio
  have h2 := h.logs
  have h3 := h.range
  have k3 := k.range
  unfold powErr
  refine ⟨?_, ?_, ?_⟩
  · show ratioHolds (powRatio i j) _ _
    unfold powRatio
    split
    · rename_i e a b l hh d q1 q2 q3
      rw [q1] at h1
      rw [q2] at h2
      rw [q3] at k3
      have := Ratio.pow h1 h2 k3
      show Ratio (((max |l| |hh| + d) * e + d * max |a| |b| : ℚ) : ℝ) _ _
      push_cast
      exact this
    · trivial
  · show logHolds (powLogs i j) _
    unfold powLogs
    split
    · rename_i a b l hh d q2 q3
      rw [q2] at h2
      rw [q3] at k3
      have := LogIn.pow h2 k3
      show LogIn ((boxLo l hh a b : ℚ) : ℝ) ((boxHi l hh a b : ℚ) : ℝ) _
      unfold boxLo boxHi
      push_cast
      exact this
    · trivial
  · show rangeHolds (powRange i j) _ _
    unfold powRange
    split
    · rename_i l hh d q1
      split
      · rename_i q2
        rw [q1] at h3
        rw [q2] at k3
        have h3 : Off l hh d x y := h3
        have k3 : Off ((2 : ℚ) : ℝ) ((2 : ℚ) : ℝ) ((0 : ℚ) : ℝ) x' y' := k3
        push_cast at k3
        have hx' : x' = (2 : ℕ) := by
          push_cast
          exact le_antisymm k3.2.1 k3.1
        have hy' : y' = (2 : ℕ) := by
          have := abs_nonpos_iff.1 k3.2.2
          push_cast
          push_cast at hx'
          linarith
        rw [hx', hy', rpow_natCast, rpow_natCast]
        have := Off.square h3
        show Off ((if 0 ≤ l then l ^ 2 else if hh ≤ 0 then hh ^ 2 else 0 : ℚ) : ℝ) ((max |l| |hh| ^ 2 : ℚ) : ℝ)
          ((d * (2 * max |l| |hh| + d) : ℚ) : ℝ) _ _
        have hc : ((if 0 ≤ l then l ^ 2 else if hh ≤ 0 then hh ^ 2 else 0 : ℚ) : ℝ) =
            if (0 : ℝ) ≤ l then (l : ℝ) ^ 2 else if (hh : ℝ) ≤ 0 then (hh : ℝ) ^ 2 else 0 := by
          have e1 : (0 : ℝ) ≤ l ↔ 0 ≤ l := by exact_mod_cast Iff.rfl
          have e2 : (hh : ℝ) ≤ 0 ↔ hh ≤ 0 := by exact_mod_cast Iff.rfl
          simp only [e1, e2]
          split
          · push_cast; rfl
          · split
            · push_cast; rfl
            · push_cast; rfl
        rw [hc]
        push_cast
        exact this
      · trivial
    · trivial

def opErr : Op → Err → Err → Err
  | .add => addErr
  | .sub => subErr
  | .mul => mulErr
  | .div => divErr
  | .pow => powErr

theorem opErr_holds (o : Op) {i j : Err} {x y x' y' : ℝ} (h : i.holds x y) (k : j.holds x' y') :
    (opErr o i j).holds (o.val x x') (o.val y y') := by
  cases o with
  | add => exact addErr_holds h k
  | sub => exact subErr_holds h k
  | mul => exact mulErr_holds h k
  | div => exact divErr_holds h k
  | pow => exact powErr_holds h k

/-! ### Functions -/

def expErr (i : Err) : Err :=
  ⟨i.range.map (fun p => p.2.2), i.range.map (fun p => (p.1, p.2.1)), none⟩

theorem expErr_holds {i : Err} {x y : ℝ} (h : i.holds x y) : (expErr i).holds (exp x) (exp y) := by
  have h3 := h.range
  unfold expErr
  refine ⟨?_, ?_, trivial⟩
  · dsimp only
    cases hi : i.range with
    | none => trivial
    | some p => rw [hi] at h3; exact Ratio.exp h3
  · dsimp only
    cases hi : i.range with
    | none => trivial
    | some p =>
      rw [hi] at h3
      have h3 : Off p.1 p.2.1 p.2.2 x y := h3
      refine ⟨exp_pos _, ?_, ?_⟩ <;> rw [log_exp]
      · exact h3.1
      · exact h3.2.1

def logRange (i : Err) : Option (ℚ × ℚ × ℚ) :=
  match i.ratio, i.logs with
  | some e, some (a, b) => some (a, b, e)
  | _, _ => none

theorem logRange_off {i : Err} {x y : ℝ} (h : i.holds x y) : rangeHolds (logRange i) (log x) (log y) := by
  have h1 := h.ratio
  have h2 := h.logs
  unfold logRange
  split
  · rename_i e a b q1 q2
    rw [q1] at h1
    rw [q2] at h2
    have h2 : LogIn a b x := h2
    exact ⟨h2.2.1, h2.2.2, Ratio.log h1 h2.1⟩
  · trivial

/-- The range of `1 / log 10`. -/
def perTen : ℚ × ℚ × ℚ := (0.434, 0.4345, 0)

theorem perTen_off : rangeHolds (some perTen) (log 10)⁻¹ (log 10)⁻¹ := by
  obtain ⟨h1, h2⟩ := log_ten_bounds
  have h0 : (0 : ℝ) < log 10 := by linarith
  refine ⟨?_, ?_, ?_⟩
  · show ((0.434 : ℚ) : ℝ) ≤ _
    refine le_trans ?_ (inv_anti₀ h0 h2)
    norm_num
  · show _ ≤ ((0.4345 : ℚ) : ℝ)
    refine (inv_anti₀ (by norm_num) h1).trans ?_
    norm_num
  · simp [perTen]

def fnErr : Fn → Err → Err
  | .exp, i => expErr i
  | .log, i => ⟨none, none, logRange i⟩
  | .log10, i => ⟨none, none, both mulRange (logRange i) (some perTen)⟩
  | .cos, i => ⟨none, none, i.range.map (fun p => (-1, 1, p.2.2))⟩
  | .sin, i => ⟨none, none, i.range.map (fun p => (-1, 1, p.2.2))⟩
  | .arctan, i => ⟨none, none, if i.range = some (1, 1, 0) then some (0.785, 0.786, 0) else none⟩
  | _, _ => .top

theorem fnErr_holds (f : Fn) {i : Err} {x y : ℝ} (h : i.holds x y) : (fnErr f i).holds (f.val x) (f.val y) := by
  have h3 := h.range
  cases f with
  | exp => exact expErr_holds h
  | log => exact ⟨trivial, trivial, logRange_off h⟩
  | log10 =>
    refine ⟨trivial, trivial, ?_⟩
    show rangeHolds (both mulRange (logRange i) (some perTen)) (log x / log 10) (log y / log 10)
    have := logRange_off h
    rcases hi : logRange i with - | p
    · trivial
    · rw [hi] at this
      rw [div_eq_mul_inv, div_eq_mul_inv]
      exact mulRange_off this perTen_off
  | cos =>
    refine ⟨trivial, trivial, ?_⟩
    show rangeHolds (i.range.map (fun p => (-1, 1, p.2.2))) (cos x) (cos y)
    cases hi : i.range with
    | none => trivial
    | some p =>
      rw [hi] at h3
      have h3 : Off p.1 p.2.1 p.2.2 x y := h3
      show Off ((-1 : ℚ) : ℝ) ((1 : ℚ) : ℝ) p.2.2 (cos x) (cos y)
      push_cast
      exact ⟨neg_one_le_cos x, cos_le_one x, (abs_cos_sub_cos_le y x).trans h3.2.2⟩
  | sin =>
    refine ⟨trivial, trivial, ?_⟩
    show rangeHolds (i.range.map (fun p => (-1, 1, p.2.2))) (sin x) (sin y)
    cases hi : i.range with
    | none => trivial
    | some p =>
      rw [hi] at h3
      have h3 : Off p.1 p.2.1 p.2.2 x y := h3
      show Off ((-1 : ℚ) : ℝ) ((1 : ℚ) : ℝ) p.2.2 (sin x) (sin y)
      push_cast
      exact ⟨neg_one_le_sin x, sin_le_one x, (abs_sin_sub_sin_le y x).trans h3.2.2⟩
  | arctan =>
    refine ⟨trivial, trivial, ?_⟩
    show rangeHolds (if i.range = some (1, 1, 0) then some (0.785, 0.786, 0) else none) (arctan x) (arctan y)
    split
    · rename_i hi
      rw [hi] at h3
      have h3 : Off ((1 : ℚ) : ℝ) ((1 : ℚ) : ℝ) ((0 : ℚ) : ℝ) x y := h3
      push_cast at h3
      have hx : x = 1 := le_antisymm h3.2.1 h3.1
      have hy : y = 1 := by
        have := abs_nonpos_iff.1 h3.2.2
        linarith
      rw [hx, hy, arctan_one]
      have p1 := Real.pi_gt_d4
      have p2 := Real.pi_lt_d4
      show Off ((0.785 : ℚ) : ℝ) ((0.786 : ℚ) : ℝ) ((0 : ℚ) : ℝ) _ _
      push_cast
      refine ⟨by linarith, by linarith, by simp⟩
    · trivial
  | abs => exact ⟨trivial, trivial, trivial⟩
  | sqrt => exact ⟨trivial, trivial, trivial⟩
  | arccos => exact ⟨trivial, trivial, trivial⟩
  | trunc => exact ⟨trivial, trivial, trivial⟩
  | floor => exact ⟨trivial, trivial, trivial⟩

end Rl
end PyBox
