import Verif.Rate.Sym
import Mathlib.Analysis.SpecialFunctions.Log.Basic
import Mathlib.Analysis.Complex.ExponentialBounds
import Mathlib.Tactic.Linarith
import Mathlib.Tactic.Positivity
import Mathlib.Tactic.NormNum

/-!
# Sign analysis of rate programs

For every statement of a rate program: is its expression defined when it is executed, and what is
known about the sign (and an upper bound) of the value it assigns.
-/

namespace PyBox
namespace Rl

/-! ### Execution without a numerical error -/

/-- Every assignment is defined when it is reached. -/
def OkAsgs (env : Vals) : List (Var × Ex) → Prop
  | [] => True
  | p :: l => p.2.Ok env ∧ OkAsgs (Function.update env p.1 (p.2.val env)) l

/-- The statement is defined. -/
def Stmt.Ok (env : Vals) : Stmt → Prop
  | .asg _ e => e.Ok env
  | .ifLe a b t e => a.Ok env ∧ b.Ok env ∧ (a.val env ≤ b.val env → OkAsgs env t) ∧
      (¬ a.val env ≤ b.val env → OkAsgs env e)

/-- Every statement is defined when it is reached. -/
def OkRun (env : Vals) : List Stmt → Prop
  | [] => True
  | s :: p => s.Ok env ∧ OkRun (s.run env) p

/-! ### What is known about a value -/

inductive Sgn where
  | pos | nonneg | any
  deriving DecidableEq

structure Info where
  sgn : Sgn
  hi : Option ℚ
  deriving DecidableEq

def Sgn.holds : Sgn → ℝ → Prop
  | .pos, x => 0 < x
  | .nonneg, x => 0 ≤ x
  | .any, _ => True

def hiHolds : Option ℚ → ℝ → Prop
  | some q, x => x ≤ (q : ℝ)
  | none, _ => True

def Info.holds (i : Info) (x : ℝ) : Prop := i.sgn.holds x ∧ hiHolds i.hi x

abbrev St := List (Var × Info)

def St.get : St → Var → Info
  | [], _ => ⟨.any, none⟩
  | p :: s, v => if p.1 = v then p.2 else St.get s v

def St.Sound (s : St) (env : Vals) : Prop := ∀ v, (s.get v).holds (env v)

def Sgn.isNonneg : Sgn → Bool
  | .any => false
  | _ => true

theorem Sgn.nonneg_of {s : Sgn} {x : ℝ} (h : s.holds x) (hs : s.isNonneg = true) : 0 ≤ x := by
  cases s with
  | pos => exact le_of_lt h
  | nonneg => exact h
  | any => cases hs

def sgnOf (q : ℚ) : Sgn := if 0 < q then .pos else if 0 ≤ q then .nonneg else .any

theorem sgnOf_holds (q : ℚ) (x : ℝ) (h : (q : ℝ) ≤ x) : (sgnOf q).holds x := by
  unfold sgnOf
  split
  · rename_i hq; exact lt_of_lt_of_le (by exact_mod_cast hq) h
  · split
    · rename_i hq; exact le_trans (by exact_mod_cast hq) h
    · trivial

def Sgn.add : Sgn → Sgn → Sgn
  | .pos, .pos => .pos
  | .pos, .nonneg => .pos
  | .nonneg, .pos => .pos
  | .nonneg, .nonneg => .nonneg
  | _, _ => .any

theorem Sgn.add_holds {s t : Sgn} {x y : ℝ} (hx : s.holds x) (hy : t.holds y) :
    (s.add t).holds (x + y) := by
  cases s <;> cases t <;> simp only [Sgn.add, Sgn.holds] at * <;> linarith

def Sgn.mul : Sgn → Sgn → Sgn
  | .pos, .pos => .pos
  | .pos, .nonneg => .nonneg
  | .nonneg, .pos => .nonneg
  | .nonneg, .nonneg => .nonneg
  | _, _ => .any

theorem Sgn.mul_holds {s t : Sgn} {x y : ℝ} (hx : s.holds x) (hy : t.holds y) :
    (s.mul t).holds (x * y) := by
  cases s <;> cases t <;> simp only [Sgn.mul, Sgn.holds] at * <;> positivity

/-- Division by a positive number. -/
def Sgn.div : Sgn → Sgn → Sgn
  | s, .pos => s
  | _, _ => .any

theorem Sgn.div_holds {s t : Sgn} {x y : ℝ} (hx : s.holds x) (hy : t.holds y) :
    (s.div t).holds (x / y) := by
  cases s <;> cases t <;> simp only [Sgn.div, Sgn.holds] at * <;> positivity

/-- Upper bound of a product. -/
def hiMul (a b : Info) : Option ℚ :=
  match a.hi, b.hi with
  | some q, some r =>
    if a.sgn.isNonneg && decide (0 ≤ r) then some (q * r)
    else if b.sgn.isNonneg && decide (0 ≤ q) then some (q * r)
    else if (a.sgn.isNonneg && decide (r ≤ 0)) || (b.sgn.isNonneg && decide (q ≤ 0)) then some 0
    else none
  | some q, none => if b.sgn.isNonneg && decide (q ≤ 0) then some 0 else none
  | none, some r => if a.sgn.isNonneg && decide (r ≤ 0) then some 0 else none
  | none, none => none

theorem hiMul_holds {a b : Info} {x y : ℝ} (ha : a.holds x) (hb : b.holds y) :
    hiHolds (hiMul a b) (x * y) := by
  obtain ⟨has, hah⟩ := ha
  obtain ⟨hbs, hbh⟩ := hb
  have neg1 : ∀ r : ℚ, 0 ≤ x → y ≤ (r : ℝ) → r ≤ 0 → x * y ≤ ((0 : ℚ) : ℝ) := by
    intro r h1 h2 h3
    have h3' : (r : ℝ) ≤ 0 := by exact_mod_cast h3
    push_cast
    exact mul_nonpos_of_nonneg_of_nonpos h1 (h2.trans h3')
  have neg2 : ∀ r : ℚ, 0 ≤ y → x ≤ (r : ℝ) → r ≤ 0 → x * y ≤ ((0 : ℚ) : ℝ) := by
    intro r h1 h2 h3
    have h3' : (r : ℝ) ≤ 0 := by exact_mod_cast h3
    push_cast
    exact mul_nonpos_of_nonpos_of_nonneg (h2.trans h3') h1
  unfold hiMul
  split
  · rename_i q r hq hr
    rw [hq] at hah; rw [hr] at hbh
    simp only [hiHolds] at hah hbh
    split
    · rename_i h
      rw [Bool.and_eq_true, decide_eq_true_eq] at h
      have hx := Sgn.nonneg_of has h.1
      have hr' : (0 : ℝ) ≤ r := by exact_mod_cast h.2
      simp only [hiHolds]; push_cast
      exact (mul_le_mul_of_nonneg_left hbh hx).trans (mul_le_mul_of_nonneg_right hah hr')
    · split
      · rename_i h
        rw [Bool.and_eq_true, decide_eq_true_eq] at h
        have hy := Sgn.nonneg_of hbs h.1
        have hq' : (0 : ℝ) ≤ q := by exact_mod_cast h.2
        simp only [hiHolds]; push_cast
        exact (mul_le_mul_of_nonneg_right hah hy).trans (mul_le_mul_of_nonneg_left hbh hq')
      · split
        · rename_i h
          rw [Bool.or_eq_true, Bool.and_eq_true, Bool.and_eq_true, decide_eq_true_eq,
            decide_eq_true_eq] at h
          rcases h with h | h
          · exact neg1 r (Sgn.nonneg_of has h.1) hbh h.2
          · exact neg2 q (Sgn.nonneg_of hbs h.1) hah h.2
        · trivial
  · rename_i q hq hr
    rw [hq] at hah
    split
    · rename_i h
      rw [Bool.and_eq_true, decide_eq_true_eq] at h
      exact neg2 q (Sgn.nonneg_of hbs h.1) hah h.2
    · trivial
  · rename_i r hq hr
    rw [hr] at hbh
    split
    · rename_i h
      rw [Bool.and_eq_true, decide_eq_true_eq] at h
      exact neg1 r (Sgn.nonneg_of has h.1) hbh h.2
    · trivial
  · trivial

def hiDiv (a b : Info) : Option ℚ :=
  match a.hi with
  | some q => if b.sgn.isNonneg && decide (q ≤ 0) then some 0 else none
  | none => none

theorem hiDiv_holds {a b : Info} {x y : ℝ} (ha : a.holds x) (hb : b.holds y) :
    hiHolds (hiDiv a b) (x / y) := by
  unfold hiDiv
  split
  · rename_i q hq
    have hah := ha.2
    rw [hq] at hah
    split
    · rename_i h
      rw [Bool.and_eq_true, decide_eq_true_eq] at h
      have hy := Sgn.nonneg_of hb.1 h.1
      have hq' : (q : ℝ) ≤ 0 := by exact_mod_cast h.2
      simp only [hiHolds] at *
      push_cast
      exact div_nonpos_of_nonpos_of_nonneg (hah.trans hq') hy
    · trivial
  · trivial

def hiAdd (a b : Option ℚ) : Option ℚ :=
  match a, b with
  | some q, some r => some (q + r)
  | _, _ => none

theorem hiAdd_holds {a b : Option ℚ} {x y : ℝ} (ha : hiHolds a x) (hb : hiHolds b y) :
    hiHolds (hiAdd a b) (x + y) := by
  cases a <;> cases b <;> simp only [hiAdd, hiHolds] at *
  push_cast; linarith

/-- A literal whole number that is not negative. -/
def natLit : Ex → Option Nat
  | .num q => if q.den = 1 ∧ 0 ≤ q.num then some q.num.toNat else none
  | _ => none

theorem natLit_val {e : Ex} {n : Nat} (h : natLit e = some n) (env : Vals) : e.val env = n := by
  unfold natLit at h
  split at h
  · rename_i q
    split at h
    · rename_i hq
      rw [← Option.some.inj h]
      have h1 : q = (q.num : ℚ) := (Rat.den_eq_one_iff q).1 hq.1 |>.symm
      have h2 : ((q.num.toNat : ℤ)) = q.num := Int.toNat_of_nonneg hq.2
      rw [Ex.val]
      have : (q : ℝ) = ((q.num : ℚ) : ℝ) := by rw [← h1]
      rw [this, ← h2]
      push_cast
      rfl
    · cases h
  · cases h

/-- A literal that is not negative. -/
def nonnegLit : Ex → Bool
  | .num q => decide (0 ≤ q)
  | _ => false

theorem nonnegLit_val {e : Ex} (h : nonnegLit e = true) (env : Vals) : 0 ≤ e.val env := by
  unfold nonnegLit at h
  split at h
  · rw [decide_eq_true_eq] at h
    rw [Ex.val]
    exact_mod_cast h
  · cases h

def powSgn (a : Sgn) (b : Ex) : Sgn :=
  match a with
  | .pos => .pos
  | .nonneg => .nonneg
  | .any => match natLit b with
    | some n => if n % 2 = 0 then .nonneg else .any
    | none => .any

theorem powSgn_holds {a : Sgn} {b : Ex} {x : ℝ} (h : a.holds x) (env : Vals) :
    (powSgn a b).holds (x ^ b.val env) := by
  cases a with
  | pos => exact Real.rpow_pos_of_pos h _
  | nonneg => exact Real.rpow_nonneg h _
  | any =>
    unfold powSgn
    simp only
    split
    · rename_i n hn
      split
      · rename_i he
        rw [natLit_val hn, Real.rpow_natCast]
        exact Even.pow_nonneg (Nat.even_iff.2 he) x
      · trivial
    · trivial

/-- Sign and bound of the value of a function. -/
def fnInfo : Fn → Info → Info
  | .exp, i => ⟨.pos, match i.hi with | some q => if q ≤ 0 then some 1 else none | none => none⟩
  | .log10, i => ⟨.any, match i.sgn, i.hi with
      | .pos, some q => some (max 0 (q - 1))
      | _, _ => none⟩
  | .abs, _ => ⟨.nonneg, none⟩
  | .sqrt, _ => ⟨.nonneg, none⟩
  | .arctan, i => ⟨match i.sgn with | .pos => .pos | _ => .any, none⟩
  | .cos, _ => ⟨.any, some 1⟩
  | .sin, _ => ⟨.any, some 1⟩
  | _, _ => ⟨.any, none⟩

theorem one_le_log_ten : 1 ≤ Real.log 10 := by
  rw [Real.le_log_iff_exp_le (by norm_num)]
  have := Real.exp_one_lt_d9
  linarith

theorem log10_le (x : ℝ) (h : 0 < x) : Real.log x / Real.log 10 ≤ max 0 (x - 1) := by
  have h1 := Real.log_le_sub_one_of_pos h
  have h10 := one_le_log_ten
  rcases le_total (Real.log x) 0 with hn | hn
  · exact le_max_of_le_left (div_nonpos_of_nonpos_of_nonneg hn (by linarith))
  · refine le_max_of_le_right ?_
    exact (div_le_self hn h10).trans h1

theorem fnInfo_holds (f : Fn) {i : Info} {x : ℝ} (h : i.holds x) : (fnInfo f i).holds (f.val x) := by
  obtain ⟨hs, hh⟩ := h
  cases f with
  | exp =>
    refine ⟨Real.exp_pos x, ?_⟩
    simp only [fnInfo]
    split
    · rename_i q hq
      rw [hq] at hh
      split
      · rename_i h0
        have : (q : ℝ) ≤ 0 := by exact_mod_cast h0
        simp only [hiHolds, Fn.val] at *
        push_cast
        exact Real.exp_le_one_iff.2 (hh.trans this)
      · trivial
    · trivial
  | log10 =>
    refine ⟨trivial, ?_⟩
    simp only [fnInfo]
    split
    · rename_i q h1 h2
      rw [h1] at hs; rw [h2] at hh
      simp only [hiHolds, Fn.val, Sgn.holds] at *
      push_cast
      exact (log10_le x hs).trans (max_le_max le_rfl (by linarith))
    · trivial
  | abs => exact ⟨abs_nonneg x, trivial⟩
  | sqrt => exact ⟨Real.sqrt_nonneg x, trivial⟩
  | arctan =>
    refine ⟨?_, trivial⟩
    simp only [fnInfo]
    split
    · rename_i h1
      rw [h1] at hs
      have := Real.arctan_strictMono hs
      rwa [Real.arctan_zero] at this
    · trivial
  | cos => exact ⟨trivial, by simpa [fnInfo, hiHolds, Fn.val] using Real.cos_le_one x⟩
  | sin => exact ⟨trivial, by simpa [fnInfo, hiHolds, Fn.val] using Real.sin_le_one x⟩
  | _ => exact ⟨trivial, trivial⟩

/-- Sign of a difference whose first part is a literal. -/
def subSgn (a : Ex) (b : Info) : Sgn :=
  match a, b.hi with
  | .num q, some r => sgnOf (q - r)
  | _, _ => .any

theorem subSgn_holds (a : Ex) {b : Info} {y : ℝ} (env : Vals) (h : b.holds y) :
    (subSgn a b).holds (a.val env - y) := by
  unfold subSgn
  split
  · rename_i q r hr
    have hh := h.2
    rw [hr] at hh
    refine sgnOf_holds _ _ ?_
    simp only [hiHolds, Ex.val] at *
    push_cast
    linarith
  · trivial

/-- What is known about an expression. -/
def absEx (s : St) : Ex → Info
  | .num q => ⟨sgnOf q, some q⟩
  | .var v => s.get v
  | .neg a => ⟨.any, if (absEx s a).sgn.isNonneg then some 0 else none⟩
  | .add a b => ⟨(absEx s a).sgn.add (absEx s b).sgn, hiAdd (absEx s a).hi (absEx s b).hi⟩
  | .sub a b => ⟨subSgn a (absEx s b), none⟩
  | .mul a b => ⟨(absEx s a).sgn.mul (absEx s b).sgn, hiMul (absEx s a) (absEx s b)⟩
  | .div a b => ⟨(absEx s a).sgn.div (absEx s b).sgn, hiDiv (absEx s a) (absEx s b)⟩
  | .pow a b => ⟨powSgn (absEx s a).sgn b, none⟩
  | .call f a => fnInfo f (absEx s a)
  | .ite _ _ _ _ => ⟨.any, none⟩

theorem absEx_holds {s : St} {env : Vals} (h : s.Sound env) (e : Ex) :
    (absEx s e).holds (e.val env) := by
  induction e with
  | num q => exact ⟨sgnOf_holds q _ le_rfl, le_rfl⟩
  | var v => exact h v
  | neg a iha =>
    refine ⟨trivial, ?_⟩
    simp only [absEx]
    split
    · rename_i hs
      have := Sgn.nonneg_of iha.1 hs
      simp only [hiHolds, Ex.val]; push_cast; linarith
    · trivial
  | add a b iha ihb => exact ⟨Sgn.add_holds iha.1 ihb.1, hiAdd_holds iha.2 ihb.2⟩
  | sub a b iha ihb => exact ⟨subSgn_holds a env ihb, trivial⟩
  | mul a b iha ihb => exact ⟨Sgn.mul_holds iha.1 ihb.1, hiMul_holds iha ihb⟩
  | div a b iha ihb => exact ⟨Sgn.div_holds iha.1 ihb.1, hiDiv_holds iha ihb⟩
  | pow a b iha ihb => exact ⟨powSgn_holds iha.1 env, trivial⟩
  | call f a iha => exact fnInfo_holds f iha
  | ite a b t e => exact ⟨trivial, trivial⟩

/-- The arguments of a function are in its domain. -/
def okFn (f : Fn) (s : Sgn) : Bool :=
  match f with
  | .log10 => decide (s = .pos)
  | .log => decide (s = .pos)
  | .sqrt => s.isNonneg
  | .arccos => false
  | _ => true

/-- The expression is defined. -/
def okEx (s : St) : Ex → Bool
  | .num _ => true
  | .var _ => true
  | .neg a => okEx s a
  | .add a b => okEx s a && okEx s b
  | .sub a b => okEx s a && okEx s b
  | .mul a b => okEx s a && okEx s b
  | .div a b => okEx s a && okEx s b && decide ((absEx s b).sgn = .pos)
  | .pow a b => okEx s a && okEx s b && (decide ((absEx s a).sgn = .pos) || (natLit b).isSome ||
      ((absEx s a).sgn.isNonneg && nonnegLit b))
  | .call f a => okEx s a && okFn f (absEx s a).sgn
  | .ite _ _ _ _ => false

theorem okEx_ok {s : St} {env : Vals} (h : s.Sound env) (e : Ex) (ho : okEx s e = true) :
    e.Ok env := by
  induction e with
  | num q => trivial
  | var v => trivial
  | neg a iha => exact iha ho
  | add a b iha ihb =>
    rw [okEx, Bool.and_eq_true] at ho; exact ⟨iha ho.1, ihb ho.2⟩
  | sub a b iha ihb =>
    rw [okEx, Bool.and_eq_true] at ho; exact ⟨iha ho.1, ihb ho.2⟩
  | mul a b iha ihb =>
    rw [okEx, Bool.and_eq_true] at ho; exact ⟨iha ho.1, ihb ho.2⟩
  | div a b iha ihb =>
    rw [okEx, Bool.and_eq_true, Bool.and_eq_true, decide_eq_true_eq] at ho
    refine ⟨iha ho.1.1, ihb ho.1.2, ?_⟩
    have := (absEx_holds h b).1
    rw [ho.2] at this
    exact ne_of_gt this
  | pow a b iha ihb =>
    rw [okEx, Bool.and_eq_true, Bool.and_eq_true, Bool.or_eq_true, Bool.or_eq_true,
      decide_eq_true_eq, Bool.and_eq_true] at ho
    refine ⟨iha ho.1.1, ihb ho.1.2, ?_⟩
    have ha := (absEx_holds h a).1
    rcases ho.2 with (h1 | h1) | h1
    · rw [h1] at ha; exact Or.inl ha
    · obtain ⟨n, hn⟩ := Option.isSome_iff_exists.1 h1
      have hv := natLit_val hn env
      by_cases h0 : a.val env = 0
      · exact Or.inr (Or.inl ⟨h0, by rw [hv]; positivity⟩)
      · exact Or.inr (Or.inr ⟨n, by rw [hv]; push_cast; rfl, h0⟩)
    · have h2 := Sgn.nonneg_of ha h1.1
      have h3 := nonnegLit_val h1.2 env
      rcases h2.lt_or_eq with h4 | h4
      · exact Or.inl h4
      · exact Or.inr (Or.inl ⟨h4.symm, h3⟩)
  | call f a iha =>
    rw [okEx, Bool.and_eq_true] at ho
    refine ⟨iha ho.1, ?_⟩
    have ha := (absEx_holds h a).1
    have hf := ho.2
    cases f with
    | log10 => rw [okFn, decide_eq_true_eq] at hf; rw [hf] at ha; exact ha
    | log => rw [okFn, decide_eq_true_eq] at hf; rw [hf] at ha; exact ha
    | sqrt => exact Sgn.nonneg_of ha hf
    | arccos => cases hf
    | _ => trivial
  | ite => cases ho

/-! ### Programs -/

theorem sound_cons {s : St} {env : Vals} (h : s.Sound env) (v : Var) {i : Info} {x : ℝ}
    (hi : i.holds x) : St.Sound ((v, i) :: s) (Function.update env v x) := by
  intro w
  rw [St.get]
  by_cases hw : v = w
  · subst hw; rw [if_pos rfl, Function.update_self]; exact hi
  · rw [if_neg hw, Function.update_of_ne (Ne.symm hw)]; exact h w

def absAsgs (s : St) : List (Var × Ex) → Option St
  | [] => some s
  | p :: l => if okEx s p.2 then absAsgs ((p.1, absEx s p.2) :: s) l else none

theorem absAsgs_holds (l : List (Var × Ex)) : ∀ {s s' : St} {env : Vals}, s.Sound env →
    absAsgs s l = some s' → OkAsgs env l ∧ s'.Sound (runAsgs env l) := by
  induction l with
  | nil => intro s s' env h hs; rw [← Option.some.inj hs]; exact ⟨trivial, h⟩
  | cons p l ih =>
    intro s s' env h hs
    rw [absAsgs] at hs
    split at hs
    · rename_i ho
      obtain ⟨h1, h2⟩ := ih (sound_cons h p.1 (absEx_holds h p.2)) hs
      exact ⟨⟨okEx_ok h _ ho, h1⟩, h2⟩
    · cases hs

def Sgn.join : Sgn → Sgn → Sgn
  | .pos, .pos => .pos
  | .any, _ => .any
  | _, .any => .any
  | _, _ => .nonneg

/-- What two branches have in common (signs only). -/
def Info.join (i j : Info) : Info := ⟨i.sgn.join j.sgn, none⟩

theorem Info.join_left {i j : Info} {x : ℝ} (h : i.holds x) : (i.join j).holds x := by
  refine ⟨?_, trivial⟩
  have h1 := h.1
  revert h1
  rcases i with ⟨s, -⟩; rcases j with ⟨t, -⟩
  cases s <;> cases t <;> simp only [Info.join, Sgn.join, Sgn.holds] <;> intro h1 <;>
    first | trivial | exact h1 | exact le_of_lt h1

theorem Info.join_right {i j : Info} {x : ℝ} (h : j.holds x) : (i.join j).holds x := by
  refine ⟨?_, trivial⟩
  have h1 := h.1
  revert h1
  rcases i with ⟨s, -⟩; rcases j with ⟨t, -⟩
  cases s <;> cases t <;> simp only [Info.join, Sgn.join, Sgn.holds] <;> intro h1 <;>
    first | trivial | exact h1 | exact le_of_lt h1

/-- What is known in the `else` branch of `if v <= b`. -/
def refine (s : St) (a b : Ex) : St :=
  match a with
  | .var v => if (absEx s b).sgn.isNonneg then (v, ⟨.pos, none⟩) :: s else s
  | _ => s

theorem refine_sound {s : St} {env : Vals} (h : s.Sound env) (a b : Ex)
    (hc : ¬ a.val env ≤ b.val env) : (refine s a b).Sound env := by
  unfold refine
  split
  · rename_i v
    split
    · rename_i hb
      have h1 := Sgn.nonneg_of (absEx_holds h b).1 hb
      have h2 : 0 < env v := lt_of_le_of_lt h1 (not_le.1 hc)
      intro w
      rw [St.get]
      by_cases hw : v = w
      · subst hw; rw [if_pos rfl]; exact ⟨h2, trivial⟩
      · rw [if_neg hw]; exact h w
    · exact h
  · exact h

def absStmt (s : St) : Stmt → Option St
  | .asg v e => if okEx s e then some ((v, absEx s e) :: s) else none
  | .ifLe a b t e =>
    if okEx s a && okEx s b then
      match absAsgs s t, absAsgs (refine s a b) e with
      | some x, some y =>
        some (((t ++ e).map Prod.fst).map (fun v => (v, (x.get v).join (y.get v))) ++ s)
      | _, _ => none
    else none

theorem St.get_map_append (f : Var → Info) (l : List Var) (s : St) (v : Var) :
    St.get (l.map (fun v => (v, f v)) ++ s) v = if v ∈ l then f v else s.get v := by
  induction l with
  | nil => simp
  | cons w l ih =>
    rw [List.map_cons, List.cons_append, St.get]
    by_cases h : w = v
    · subst h; simp
    · rw [if_neg h, ih]
      have : (v ∈ w :: l) ↔ v ∈ l := by
        rw [List.mem_cons]; exact ⟨fun hh => hh.resolve_left (Ne.symm h), Or.inr⟩
      simp only [this]

theorem absStmt_holds (st : Stmt) {s s' : St} {env : Vals} (h : s.Sound env)
    (hs : absStmt s st = some s') : st.Ok env ∧ s'.Sound (st.run env) := by
  cases st with
  | asg v e =>
    rw [absStmt] at hs
    split at hs
    · rename_i ho
      rw [← Option.some.inj hs]
      exact ⟨okEx_ok h e ho, sound_cons h v (absEx_holds h e)⟩
    · cases hs
  | ifLe a b t e =>
    rw [absStmt] at hs
    split at hs
    · rename_i ho
      rw [Bool.and_eq_true] at ho
      split at hs
      · rename_i x y hx hy
        rw [← Option.some.inj hs]
        refine ⟨⟨okEx_ok h a ho.1, okEx_ok h b ho.2, fun _ => (absAsgs_holds t h hx).1,
          fun hc => (absAsgs_holds e (refine_sound h a b hc) hy).1⟩, ?_⟩
        intro v
        rw [St.get_map_append, Stmt.run]
        by_cases hc : a.val env ≤ b.val env
        · rw [if_pos hc]
          have h1 := (absAsgs_holds t h hx).2 v
          split
          · exact Info.join_left h1
          · rename_i hv
            rw [List.map_append, List.mem_append, not_or] at hv
            rw [runAsgs_not_mem t v hv.1]; exact h v
        · rw [if_neg hc]
          have h1 := (absAsgs_holds e (refine_sound h a b hc) hy).2 v
          split
          · exact Info.join_right h1
          · rename_i hv
            rw [List.map_append, List.mem_append, not_or] at hv
            rw [runAsgs_not_mem e v hv.2]; exact h v
      · cases hs
    · cases hs

/-- Analyse a program. -/
def absRun (s : St) : List Stmt → Option St
  | [] => some s
  | st :: p => (absStmt s st).bind (fun s => absRun s p)

theorem absRun_holds (p : List Stmt) : ∀ {s s' : St} {env : Vals}, s.Sound env →
    absRun s p = some s' → OkRun env p ∧ s'.Sound (run env p) := by
  induction p with
  | nil => intro s s' env h hs; rw [← Option.some.inj hs]; exact ⟨trivial, h⟩
  | cons st p ih =>
    intro s s' env h hs
    rw [absRun] at hs
    obtain ⟨s1, h1, h2⟩ := Option.bind_eq_some_iff.1 hs
    obtain ⟨h3, h4⟩ := absStmt_holds st h h1
    obtain ⟨h5, h6⟩ := ih h4 h2
    exact ⟨⟨h3, h5⟩, h6⟩

end Rl
end PyBox
