import Verif.Gen.Shapes
import Verif.Rate.Doubles

/-!
# Rounding in the generated gas routines

The files of `Gen/Text.lean` run with the rounding of `Rate/Kinds.lean`. In Fortran a stoichiometric coefficient such as
`0.35` has single precision (`/repo/Parse_eqn_file.py` lines 2597–2635 print it without an exponent letter), whereas
the arrays are declared `REAL(8)`. Numbers in the Python files, compiled by numba, have double precision.
-/

namespace PyBox

open Rl

/-- The kinds of literals in a language. -/
def Lang.kinds : Lang → Kind → Prop
  | .python, k => k = .real .double
  | .fortran, _ => True

/-- What follows the first `=` of a statement, with kinds. -/
def kRhs (line : Str) : Option KEx :=
  (kLexLine line).bind fun ts => kExpr (ts.dropWhile fun t => !decide (t = .sym '=')).tail

/-- `e` is the right-hand side `x` of the statement `line`, with the kinds of its literals. -/
def KindsOf (lang : Lang) (line : Str) (x : Ex) (e : KEx) : Prop :=
  match lang with
  | .python => e.erase = x ∧ e.Lits (· = .real .double)
  | .fortran => kRhs line = some e

namespace Spec

/-- Running statements one after the other may leave `out` in the array, if each operation is rounded by `R`. -/
inductive RoundedCmds {κ : Type} [Place κ] [DecidableEq κ] [Subscript κ] (R : Rounding) (F : Frame) (env : Env) :
    List (Nat × Str) → (κ → ℝ) → (κ → ℝ) → Prop
  | nil (a : κ → ℝ) : RoundedCmds R F env [] a a
  | fill {l : Nat × Str} {ls : List (Nat × Str)} {a out : κ → ℝ} {x : Ex} {e : KEx} {v : KVal} :
      readCmd (κ := κ) F l = some (.fill x) → KindsOf F.lang l.2 x e → Ev R (env.vals F.lang) e v →
      RoundedCmds R F env ls (fun _ => v.toReal) out → RoundedCmds R F env (l :: ls) a out
  | asg {l : Nat × Str} {ls : List (Nat × Str)} {a out : κ → ℝ} {k : κ} {x : Ex} {e : KEx} {v : KVal} :
      readCmd (κ := κ) F l = some (.asg k x) → KindsOf F.lang l.2 x e → Ev R (env.vals F.lang) e v →
      RoundedCmds R F env ls (Function.update a (Subscript.offset F.lang k) v.toReal) out →
      RoundedCmds R F env (l :: ls) a out

/-- Calling the routine of a file on the array `a` may leave `out` in it, if each operation is rounded by `R`; as
`runFile`. -/
def RoundedFile {κ : Type} [Place κ] [DecidableEq κ] [Subscript κ] (R : Rounding) (F : Frame)
    (species reactions : Nat) (text : Str) (env : Env) (a out : κ → ℝ) : Prop :=
  ∃ ls, codeLines F.lang.backend [text] = F.before species reactions ++ (ls ++ F.after) ∧
    RoundedCmds R F env ls a out

end Spec

/-! ### Errors relative to a magnitude -/

/-- `y` is within `(exp c - 1) M` of `x`, and `M` is at least the size of `x`. -/
structure Near (c M x y : ℝ) : Prop where
  cost : 0 ≤ c
  size : |x| ≤ M
  dist : |y - x| ≤ (Real.exp c - 1) * M

theorem exp_sub_one_nonneg {c : ℝ} (h : 0 ≤ c) : 0 ≤ Real.exp c - 1 := by
  have := Real.add_one_le_exp c
  linarith

theorem Near.nonneg {c M x y : ℝ} (h : Near c M x y) : 0 ≤ M := (abs_nonneg x).trans h.size

theorem Near.refl (x : ℝ) : Near 0 |x| x x := ⟨le_rfl, le_rfl, by simp⟩

theorem Near.mono {c M x y c' M' : ℝ} (h : Near c M x y) (hc : c ≤ c') (hM : M ≤ M') : Near c' M' x y :=
  ⟨h.cost.trans hc, h.size.trans hM, h.dist.trans (mul_le_mul (by linarith [Real.exp_le_exp.2 hc]) hM h.nonneg
    (exp_sub_one_nonneg (h.cost.trans hc)))⟩

theorem Near.abs_le {c M x y : ℝ} (h : Near c M x y) : |y| ≤ Real.exp c * M := by
  have h1 := abs_sub_abs_le_abs_sub y x
  have h2 := h.dist
  have h3 := h.size
  linarith

theorem Near.neg {c M x y : ℝ} (h : Near c M x y) : Near c M (-x) (-y) :=
  ⟨h.cost, by rw [abs_neg]; exact h.size, by rw [neg_sub_neg, abs_sub_comm]; exact h.dist⟩

theorem Near.mul {c M x y c' M' x' y' : ℝ} (h : Near c M x y) (h' : Near c' M' x' y') :
    Near (c + c') (M * M') (x * x') (y * y') := by
  refine ⟨add_nonneg h.cost h'.cost, by rw [abs_mul]; exact mul_le_mul h.size h'.size (abs_nonneg _) h.nonneg, ?_⟩
  have e : y * y' - x * x' = (y - x) * y' + x * (y' - x') := by ring
  rw [e, Real.exp_add]
  refine (abs_add_le _ _).trans ?_
  rw [abs_mul, abs_mul]
  have h1 : |y - x| * |y'| ≤ ((Real.exp c - 1) * M) * (Real.exp c' * M') :=
    mul_le_mul h.dist h'.abs_le (abs_nonneg _) (mul_nonneg (exp_sub_one_nonneg h.cost) h.nonneg)
  have h2 : |x| * |y' - x'| ≤ M * ((Real.exp c' - 1) * M') := mul_le_mul h.size h'.dist (abs_nonneg _) h.nonneg
  have e2 : (Real.exp c * Real.exp c' - 1) * (M * M') =
      ((Real.exp c - 1) * M) * (Real.exp c' * M') + M * ((Real.exp c' - 1) * M') := by ring
  rw [e2]
  exact add_le_add h1 h2

theorem Near.add {c M x y M' x' y' : ℝ} (h : Near c M x y) (h' : Near c M' x' y') :
    Near c (M + M') (x + x') (y + y') := by
  refine ⟨h.cost, (abs_add_le _ _).trans (add_le_add h.size h'.size), ?_⟩
  have e : y + y' - (x + x') = (y - x) + (y' - x') := by ring
  rw [e, mul_add]
  exact (abs_add_le _ _).trans (add_le_add h.dist h'.dist)

/-- The unit of double precision. -/
noncomputable abbrev dbl : ℝ := 2⁻¹ ^ 52

theorem dbl_nonneg : 0 ≤ dbl := by positivity

theorem Near.round {c M x y z : ℝ} (h : Near c M x y) (hz : ieee .double y z) : Near (c + dbl) M x z := by
  refine ⟨add_nonneg h.cost dbl_nonneg, h.size, ?_⟩
  have h1 : |z - y| ≤ dbl * |y| := hz
  have h2 := mul_le_mul_of_nonneg_left h.abs_le dbl_nonneg
  have h3 := abs_sub_le z y x
  have h4 := h.dist
  have h5 := mul_le_mul_of_nonneg_left (Real.add_one_le_exp dbl) (mul_nonneg (Real.exp_pos c).le h.nonneg)
  rw [Real.exp_add]
  nlinarith

theorem Near.of_relative {u x y : ℝ} (hu : 0 ≤ u) (h : |y - x| ≤ u * |x|) : Near u |x| x y :=
  ⟨hu, le_rfl, h.trans (mul_le_mul_of_nonneg_right (by linarith [Real.add_one_le_exp u]) (abs_nonneg _))⟩

theorem Near.zero {M x y : ℝ} (h : Near 0 M x y) : y = x := by
  have := h.dist
  rw [Real.exp_zero, sub_self, zero_mul] at this
  have := abs_nonpos_iff.1 this
  linarith

/-! ### Expressions -/

/-- Evaluating the literal `q` makes a relative error of at most `c`. -/
def LitCost (K : Kind → Prop) (q : ℚ) (c : ℝ) : Prop :=
  ∀ k, K k → ∀ (env : Vals) (v : KVal), Ev ieee env (.num q k) v → Near c |(q : ℝ)| q v.toReal

theorem LitCost.mono {K : Kind → Prop} {q : ℚ} {c c' : ℝ} (h : LitCost K q c) (hc : c ≤ c') : LitCost K q c' :=
  fun k hk env v hv => (h k hk env v hv).mono hc le_rfl

theorem LitCost.nonneg {K : Kind → Prop} {q : ℚ} {c : ℝ} (h : LitCost K q c) {k : Kind} (hk : K k) {env : Vals} {v : KVal}
    (hv : Ev ieee env (.num q k) v) : 0 ≤ c := (h k hk env v hv).cost

/-- A number that single precision represents is exact. -/
theorem litCost_exact (K : Kind → Prop) {q : ℚ} (h : Exact .single q) : LitCost K q 0 := by
  have hd : Exact .double q := by
    obtain ⟨m, e, h1, h2, h3⟩ := h
    exact ⟨m, e, h1.trans (by norm_num [Prec.bits]), h2, h3⟩
  intro k _ env v hv
  cases hv with
  | int hq hz => rw [hq]; simpa [KVal.toReal] using Near.refl _
  | @lit _ p x hR hx =>
    have : x = q := hx (by cases p <;> assumption)
    rw [KVal.toReal, this]
    exact Near.refl _

/-- A coefficient of ordinary size in single precision or better. -/
theorem litCost_single (K : Kind → Prop) {q : ℚ} (h1 : 1e-30 ≤ |(q : ℝ)|) (h2 : |(q : ℝ)| ≤ 1e38) : LitCost K q 6e-8 := by
  intro k _ env v hv
  cases hv with
  | int hq hz => rw [hq]; simpa [KVal.toReal] using (Near.refl _).mono (by norm_num) le_rfl
  | @lit _ p x hR hx =>
    refine Near.of_relative (by norm_num) ?_
    cases p with
    | single =>
      have := hR (h2.trans (by norm_num))
      have e : (2⁻¹ : ℝ) ^ 150 ≤ 1e-14 * 1e-30 := by norm_num
      have : |x - q| ≤ 2⁻¹ ^ 24 * |(q : ℝ)| + 2⁻¹ ^ 150 := this
      have e2 : (2⁻¹ : ℝ) ^ 24 ≤ 5.9605e-8 := by norm_num
      have e3 := mul_le_mul_of_nonneg_right e2 (abs_nonneg (q : ℝ))
      have : |x - q| ≤ 6e-8 * |(q : ℝ)| := by linarith
      exact this
    | double =>
      have h3 : |x - q| ≤ 2⁻¹ ^ 52 * |(q : ℝ)| := hR
      have : (2⁻¹ : ℝ) ^ 52 ≤ 6e-8 := by norm_num
      exact h3.trans (mul_le_mul_of_nonneg_right this (abs_nonneg _))

/-- Any number in double precision. -/
theorem litCost_double (q : ℚ) : LitCost (· = .real .double) q dbl := by
  rintro k rfl env v hv
  cases hv with
  | lit hR hx => exact Near.of_relative dbl_nonneg hR

/-- Every evaluation of the expression is within the error, and no integer in it has more than 32 bits. -/
def Close (K : Kind → Prop) (env : Vals) (x : Ex) (c M : ℝ) : Prop :=
  ∀ e : KEx, e.erase = x → e.Lits K → ∀ v, Ev ieee env e v →
    Near c M (x.val env) v.toReal ∧ ∀ z, v = .int z → PyBox.Rl.Fits z

/-- Every evaluation has double precision. -/
def IsDbl (K : Kind → Prop) (env : Vals) (x : Ex) : Prop :=
  ∀ e : KEx, e.erase = x → e.Lits K → ∀ v, Ev ieee env e v → ∃ r, v = .real .double r

variable {K : Kind → Prop} {env : Vals}

theorem erase_num {e : KEx} {q : ℚ} (h : e.erase = .num q) : ∃ k, e = .num q k := by
  cases e with
  | num q' k => cases h; exact ⟨k, rfl⟩
  | bin o a b => cases o <;> cases h
  | var v => cases h
  | neg a => cases h
  | call f a => cases h

theorem erase_var {e : KEx} {v : Var} (h : e.erase = .var v) : e = .var v := by
  cases e with
  | var v' => cases h; rfl
  | bin o a b => cases o <;> cases h
  | num q k => cases h
  | neg a => cases h
  | call f a => cases h

theorem erase_neg {e : KEx} {x : Ex} (h : e.erase = .neg x) : ∃ a, e = .neg a ∧ a.erase = x := by
  cases e with
  | neg a => cases h; exact ⟨a, rfl, rfl⟩
  | bin o a b => cases o <;> cases h
  | num q k => cases h
  | var v => cases h
  | call f a => cases h

/-- The expression with an operation on top. -/
def exOp : Op → Ex → Ex → Ex
  | .add => .add
  | .sub => .sub
  | .mul => .mul
  | .div => .div
  | .pow => .pow

theorem erase_bin {e : KEx} {o : Op} {x y : Ex} (h : e.erase = exOp o x y) :
    ∃ a b, e = .bin o a b ∧ a.erase = x ∧ b.erase = y := by
  cases e with
  | bin o' a b =>
    cases o <;> cases o' <;> first | (cases h; exact ⟨a, b, rfl, rfl, rfl⟩) | cases h
  | num q k => cases o <;> cases h
  | var v => cases o <;> cases h
  | neg a => cases o <;> cases h
  | call f a => cases o <;> cases h

theorem exOp_val (o : Op) (x y : Ex) : (exOp o x y).val env = o.val (x.val env) (y.val env) := by
  cases o <;> rfl

theorem close_num {q : ℚ} {c : ℝ} (h : LitCost K q c) : Close K env (.num q) c |(q : ℝ)| := by
  intro e he hl v hv
  obtain ⟨k, rfl⟩ := erase_num he
  refine ⟨h k hl env v hv, fun z hz => ?_⟩
  subst hz
  cases hv with
  | int _ hf => exact hf

theorem close_var (v : Var) : Close K env (.var v) 0 |env v| := by
  intro e he hl r hr
  rw [erase_var he] at hr
  cases hr
  exact ⟨Near.refl _, fun z hz => by cases hz⟩

theorem isDbl_var (v : Var) : IsDbl K env (.var v) := by
  intro e he hl r hr
  rw [erase_var he] at hr
  cases hr
  exact ⟨_, rfl⟩

theorem Close.neg {x : Ex} {c M : ℝ} (h : Close K env x c M) : Close K env (.neg x) c M := by
  intro e he hl v hv
  obtain ⟨a, rfl, ha⟩ := erase_neg he
  cases hv with
  | negInt hv hf =>
    obtain ⟨h1, -⟩ := h a ha hl _ hv
    refine ⟨?_, fun z hz => by cases hz; exact hf⟩
    rw [Ex.val]
    simpa [KVal.toReal] using h1.neg
  | negReal hv =>
    obtain ⟨h1, -⟩ := h a ha hl _ hv
    exact ⟨h1.neg, fun z hz => by cases hz⟩

theorem IsDbl.neg {x : Ex} (h : IsDbl K env x) : IsDbl K env (.neg x) := by
  intro e he hl v hv
  obtain ⟨a, rfl, ha⟩ := erase_neg he
  cases hv with
  | negInt hv hf =>
    obtain ⟨r, hr⟩ := h a ha hl _ hv
    cases hr
  | negReal hv =>
    obtain ⟨r, hr⟩ := h a ha hl _ hv
    cases hr
    exact ⟨_, rfl⟩

theorem fits_double {z : ℤ} (h : PyBox.Rl.Fits z) : |z| ≤ 2 ^ Prec.double.bits := by
  obtain ⟨h1, h2⟩ := h
  rw [abs_le]
  constructor <;> norm_num [Prec.bits] <;> norm_num at h1 h2 <;> omega

/-- Operands are converted to double precision without error. -/
theorem convert_double {v : KVal} {x : ℝ} (hv : ∀ z, v = .int z → PyBox.Rl.Fits z) (h : Convert ieee .double v x) :
    x = v.toReal := by
  cases v with
  | int z => exact h.2 (fits_double (hv z rfl))
  | real p y => exact h

theorem convertRight_double {o : Op} {v : KVal} {x : ℝ} (hv : ∀ z, v = .int z → PyBox.Rl.Fits z)
    (h : ConvertRight ieee .double o v x) : x = v.toReal := by
  cases o <;> first
    | exact convert_double hv h
    | (cases v with
        | int z => exact h
        | real p y => exact h)

/-- An operation with an operand of double precision. -/
theorem bin_double {o : Op} {x y : Ex} {c c' M M' : ℝ} (hx : Close K env x c M) (hy : Close K env y c' M')
    (hd : IsDbl K env x ∨ IsDbl K env y) {e : KEx} (he : e.erase = exOp o x y) (hl : e.Lits K) {v : KVal}
    (hv : Ev ieee env e v) : ∃ s t z, Near c M (x.val env) s ∧ Near c' M' (y.val env) t ∧ v = .real .double z ∧
      ieee .double (o.val s t) z := by
  obtain ⟨a, b, rfl, ha, hb⟩ := erase_bin he
  cases hv with
  | binInt h1 h2 _ _ =>
    rcases hd with hd | hd
    · obtain ⟨r, hr⟩ := hd a ha hl.1 _ h1; cases hr
    · obtain ⟨r, hr⟩ := hd b hb hl.2 _ h2; cases hr
  | @binReal _ _ _ v w p s t z h1 h2 hc hs ht _ hR =>
    obtain ⟨n1, f1⟩ := hx a ha hl.1 _ h1
    obtain ⟨n2, f2⟩ := hy b hb hl.2 _ h2
    have hp : p = .double := by
      rcases hd with hd | hd
      · obtain ⟨r, rfl⟩ := hd a ha hl.1 _ h1
        cases w <;> exact (Option.some.inj hc).symm
      · obtain ⟨r, rfl⟩ := hd b hb hl.2 _ h2
        cases v with
        | int z => exact (Option.some.inj hc).symm
        | real p y => cases p <;> exact (Option.some.inj hc).symm
    subst hp
    rw [convert_double f1 hs, convertRight_double f2 ht] at hR
    exact ⟨_, _, z, n1, n2, rfl, hR⟩

theorem Close.mul {x y : Ex} {c c' M M' : ℝ} (hx : Close K env x c M) (hy : Close K env y c' M')
    (hd : IsDbl K env x ∨ IsDbl K env y) : Close K env (.mul x y) (c + c' + dbl) (M * M') ∧ IsDbl K env (.mul x y) := by
  refine ⟨fun e he hl v hv => ?_, fun e he hl v hv => ?_⟩
  · obtain ⟨s, t, z, n1, n2, rfl, hR⟩ := bin_double (o := .mul) hx hy hd he hl hv
    exact ⟨(n1.mul n2).round hR, fun z hz => by cases hz⟩
  · obtain ⟨s, t, z, -, -, rfl, -⟩ := bin_double (o := .mul) hx hy hd he hl hv
    exact ⟨z, rfl⟩

theorem Close.add {x y : Ex} {c c' M M' : ℝ} (hx : Close K env x c M) (hy : Close K env y c' M')
    (hd : IsDbl K env x ∨ IsDbl K env y) :
    Close K env (.add x y) (max c c' + dbl) (M + M') ∧ IsDbl K env (.add x y) := by
  refine ⟨fun e he hl v hv => ?_, fun e he hl v hv => ?_⟩
  · obtain ⟨s, t, z, n1, n2, rfl, hR⟩ := bin_double (o := .add) hx hy hd he hl hv
    exact ⟨((n1.mono (le_max_left _ _) le_rfl).add (n2.mono (le_max_right _ _) le_rfl)).round hR,
      fun z hz => by cases hz⟩
  · obtain ⟨s, t, z, -, -, rfl, -⟩ := bin_double (o := .add) hx hy hd he hl hv
    exact ⟨z, rfl⟩

theorem Close.sub {x y : Ex} {c c' M M' : ℝ} (hx : Close K env x c M) (hy : Close K env y c' M')
    (hd : IsDbl K env x ∨ IsDbl K env y) :
    Close K env (.sub x y) (max c c' + dbl) (M + M') ∧ IsDbl K env (.sub x y) := by
  refine ⟨fun e he hl v hv => ?_, fun e he hl v hv => ?_⟩
  · obtain ⟨s, t, z, n1, n2, rfl, hR⟩ := bin_double (o := .sub) hx hy hd he hl hv
    have := (((n1.mono (le_max_left c c') le_rfl).add (n2.mono (le_max_right c c') le_rfl).neg).round
      (z := z) (by rw [← sub_eq_add_neg]; exact hR))
    rw [← sub_eq_add_neg] at this
    exact ⟨this, fun z hz => by cases hz⟩
  · obtain ⟨s, t, z, -, -, rfl, -⟩ := bin_double (o := .sub) hx hy hd he hl hv
    exact ⟨z, rfl⟩

/-- Powers of variables with exponents that have no error. -/
theorem close_pow (u : Var) {q : ℚ} (hq : LitCost K q 0) :
    Close K env (.pow (.var u) (.num q)) dbl |env u ^ (q : ℝ)| ∧ IsDbl K env (.pow (.var u) (.num q)) := by
  refine ⟨fun e he hl v hv => ?_, fun e he hl v hv => ?_⟩
  · obtain ⟨s, t, z, n1, n2, rfl, hR⟩ :=
      bin_double (o := .pow) (close_var u) (close_num hq) (Or.inl (isDbl_var u)) he hl hv
    have e1 : s = env u := n1.zero
    have e2 : t = q := n2.zero
    rw [e1, e2] at hR
    refine ⟨?_, fun z hz => by cases hz⟩
    have := (Near.refl (env u ^ (q : ℝ))).round hR
    rw [zero_add] at this
    exact this
  · obtain ⟨s, t, z, -, -, rfl, -⟩ :=
      bin_double (o := .pow) (close_var u) (close_num hq) (Or.inl (isDbl_var u)) he hl hv
    exact ⟨z, rfl⟩

end PyBox
