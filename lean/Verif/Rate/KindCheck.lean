import Verif.Rate.Kinds
import Verif.Rate.Signs

/-!
# A check of kinds

`kindOf` finds the kind of an expression before it is evaluated, and refuses what integer arithmetic makes different
from real arithmetic: a division of integers with a remainder, a negative power of an integer, an integer that does not
fit, a function of an integer.
-/

namespace PyBox
namespace Rl

/-- What is known about a number before the expression is evaluated. -/
inductive SK where
  /-- this integer -/
  | const (z : ℤ)
  /-- some integer -/
  | whole
  | real (p : Prec)
  deriving DecidableEq

/-- The precision of an operation; `none` for two integers. -/
def skCommon : SK → SK → Option Prec
  | .real .double, .real _ => some .double
  | .real .single, .real p => some p
  | .real p, _ => some p
  | _, .real p => some p
  | _, _ => none

/-- An operation on two known integers, if it gives what the numbers give. -/
def constOp (o : Op) (x y : ℤ) : Option ℤ :=
  match o with
  | .div => if y ≠ 0 ∧ y ∣ x then some (x / y) else none
  | .pow => if 0 ≤ y ∧ y < 100 then some (x ^ y.toNat) else none
  | _ => intOp o x y

def kindOf : KEx → Option SK
  | .num q .int => if q.den = 1 ∧ Fits q.num then some (.const q.num) else none
  | .num _ (.real p) => some (.real p)
  | .var _ => some (.real .double)
  | .neg a =>
    match kindOf a with
    | some (.const z) => if Fits (-z) then some (.const (-z)) else none
    | some (.real p) => some (.real p)
    | _ => none
  | .bin o a b =>
    match kindOf a, kindOf b with
    | some (.const x), some (.const y) =>
      match constOp o x y with
      | some z => if Fits z then some (.const z) else none
      | none => none
    | some x, some y => (skCommon x y).map .real
    | _, _ => none
  | .call f a =>
    match kindOf a with
    | some (.real p) => if f.floating then some (.real p) else some .whole
    | some (.const z) => if f = .abs ∧ Fits |z| then some (.const |z|) else none
    | _ => none

/-- The value has the kind. -/
def SK.Match : SK → KVal → Prop
  | .const z, r => r = .int z
  | .whole, r => ∃ z, r = .int z
  | .real p, r => ∃ x, r = .real p x

theorem constOp_sound {o : Op} {x y z : ℤ} (h : constOp o x y = some z) :
    intOp o x y = some z ∧ o.Ok x y ∧ o.val x y = z := by
  cases o with
  | add => simp only [constOp, intOp, Option.some.injEq] at h; subst h; simp [intOp, Op.Ok, Op.val]
  | sub => simp only [constOp, intOp, Option.some.injEq] at h; subst h; simp [intOp, Op.Ok, Op.val]
  | mul => simp only [constOp, intOp, Option.some.injEq] at h; subst h; simp [intOp, Op.Ok, Op.val]
  | div =>
    simp only [constOp] at h
    split at h
    · rename_i hy
      obtain ⟨c, rfl⟩ := hy.2
      simp only [Option.some.injEq] at h
      subst h
      rw [Int.mul_ediv_cancel_left _ hy.1]
      refine ⟨?_, by simpa [Op.Ok] using hy.1, ?_⟩
      · simp only [intOp, if_neg hy.1, Option.some.injEq]
        exact Int.mul_tdiv_cancel_left _ hy.1
      · have : (y : ℝ) ≠ 0 := by exact_mod_cast hy.1
        simp only [Op.val, Int.cast_mul]
        field_simp
    · cases h
  | pow =>
    simp only [constOp] at h
    split at h
    · rename_i hy
      simp only [Option.some.injEq] at h
      subst h
      obtain ⟨n, rfl⟩ := Int.eq_ofNat_of_zero_le hy.1
      refine ⟨by simp [intOp], ?_, ?_⟩
      · by_cases hx : x = 0
        · right; left; subst hx; simp
        · right; right; exact ⟨n, by simp, by exact_mod_cast hx⟩
      · simp [Op.val]
    · cases h

theorem match_common {x y : SK} {v w : KVal} (hx : x.Match v) (hy : y.Match w) : common v w = skCommon x y := by
  cases x with
  | const a =>
    obtain rfl := hx
    cases y with
    | const b => obtain rfl := hy; rfl
    | whole => obtain ⟨b, rfl⟩ := hy; rfl
    | real q => obtain ⟨b, rfl⟩ := hy; rfl
  | whole =>
    obtain ⟨a, rfl⟩ := hx
    cases y with
    | const b => obtain rfl := hy; rfl
    | whole => obtain ⟨b, rfl⟩ := hy; rfl
    | real q => obtain ⟨b, rfl⟩ := hy; rfl
  | real p =>
    obtain ⟨a, rfl⟩ := hx
    cases y with
    | const b => obtain rfl := hy; cases p <;> rfl
    | whole => obtain ⟨b, rfl⟩ := hy; cases p <;> rfl
    | real q => obtain ⟨b, rfl⟩ := hy; cases p <;> rfl

theorem kind_sound {R : Rounding} {env : Vals} : ∀ {e : KEx} {k : SK} {r : KVal}, kindOf e = some k →
    Ev R env e r → k.Match r := by
  intro e
  induction e with
  | num q kd =>
    intro k r hk he
    cases he with
    | int hq hz =>
      simp only [kindOf] at hk
      split at hk
      · rename_i h
        simp only [Option.some.injEq] at hk
        subst hk
        rw [hq]
        simp [SK.Match]
      · cases hk
    | lit =>
      simp only [kindOf, Option.some.injEq] at hk
      subst hk
      exact ⟨_, rfl⟩
  | var v =>
    intro k r hk he
    cases he
    simp only [kindOf, Option.some.injEq] at hk
    subst hk
    exact ⟨_, rfl⟩
  | neg a ih =>
    intro k r hk he
    simp only [kindOf] at hk
    split at hk
    · rename_i z ha
      split at hk
      · simp only [Option.some.injEq] at hk
        subst hk
        cases he with
        | negInt h hz => have := ih ha h; simp only [SK.Match, KVal.int.injEq] at this; subst this; rfl
        | negReal h => have := ih ha h; simp [SK.Match] at this
      · cases hk
    · rename_i p ha
      simp only [Option.some.injEq] at hk
      subst hk
      cases he with
      | negInt h hz => have := ih ha h; simp [SK.Match] at this
      | negReal h => have := ih ha h; simp only [SK.Match, KVal.real.injEq] at this; obtain ⟨x, rfl, rfl⟩ := this; exact ⟨_, rfl⟩
    · cases hk
  | bin o a b iha ihb =>
    intro k r hk he
    simp only [kindOf] at hk
    split at hk
    · rename_i x y ha hb
      cases he with
      | binInt h1 h2 h3 h4 =>
        have e1 := iha ha h1
        have e2 := ihb hb h2
        simp only [SK.Match, KVal.int.injEq] at e1 e2
        subst e1 e2
        split at hk
        · rename_i z hz
          rw [(constOp_sound hz).1] at h3
          simp only [Option.some.injEq] at h3
          subst h3
          split at hk
          · simp only [Option.some.injEq] at hk; subst hk; rfl
          · exact absurd h4 (by assumption)
        · cases hk
      | binReal h1 h2 h3 =>
        have e1 := iha ha h1
        have e2 := ihb hb h2
        simp only [SK.Match] at e1 e2
        subst e1 e2
        simp [common] at h3
    · rename_i x y hno ha hb
      obtain ⟨p, hp, rfl⟩ := Option.map_eq_some_iff.1 hk
      cases he with
      | binInt h1 h2 h3 h4 =>
        have e := match_common (iha ha h1) (ihb hb h2)
        rw [hp] at e
        cases e
      | binReal h1 h2 h3 =>
        rw [match_common (iha ha h1) (ihb hb h2), hp] at h3
        simp only [Option.some.injEq] at h3
        subst h3
        exact ⟨_, rfl⟩
    · cases hk
  | call f a ih =>
    intro k r hk he
    simp only [kindOf] at hk
    split at hk
    · rename_i p ha
      split at hk
      · rename_i hf
        simp only [Option.some.injEq] at hk
        subst hk
        cases he with
        | call _ h1 => obtain ⟨x, hx⟩ := ih ha h1; cases hx; exact ⟨_, rfl⟩
        | absInt h1 => obtain ⟨x, hx⟩ := ih ha h1; cases hx
        | floor h1 => cases hf
        | trunc h1 => cases hf
      · rename_i hf
        simp only [Option.some.injEq] at hk
        subst hk
        cases he with
        | call hf' _ => exact absurd hf' hf
        | absInt h1 => exact ⟨_, rfl⟩
        | floor h1 => exact ⟨_, rfl⟩
        | trunc h1 => exact ⟨_, rfl⟩
    · rename_i z ha
      split at hk
      · rename_i hf
        simp only [Option.some.injEq] at hk
        subst hk
        cases he with
        | call _ h1 => have := ih ha h1; cases this
        | absInt h1 => have := ih ha h1; cases this; rfl
        | floor h1 => have := ih ha h1; cases this
        | trunc h1 => have := ih ha h1; cases this
      · cases hk
    · cases hk

theorem erase_bin (o : Op) (a b : KEx) (env : Vals) :
    (KEx.bin o a b).erase.val env = o.val (a.erase.val env) (b.erase.val env) := by
  cases o <;> rfl

theorem erase_bin_ok (o : Op) (a b : KEx) (env : Vals) :
    (KEx.bin o a b).erase.Ok env ↔ a.erase.Ok env ∧ b.erase.Ok env ∧ o.Ok (a.erase.val env) (b.erase.val env) := by
  cases o <;> simp [KEx.erase, Ex.Ok, Op.Ok]

/-- The value of an integer expression. -/
theorem const_val {env : Vals} : ∀ {e : KEx} {z : ℤ}, kindOf e = some (.const z) → e.erase.val env = z := by
  intro e
  induction e with
  | num q kd =>
    intro z hk
    cases kd with
    | int =>
      simp only [kindOf] at hk
      split at hk
      · rename_i h
        simp only [Option.some.injEq, SK.const.injEq] at hk
        subst hk
        simp only [KEx.erase, Ex.val]
        conv_lhs => rw [← Rat.num_div_den q, h.1]
        simp
      · cases hk
    | real p => simp [kindOf] at hk
  | var v => intro z hk; simp [kindOf] at hk
  | neg a ih =>
    intro z hk
    simp only [kindOf] at hk
    split at hk
    · rename_i w ha
      split at hk
      · simp only [Option.some.injEq, SK.const.injEq] at hk
        subst hk
        simp [KEx.erase, Ex.val, ih ha]
      · cases hk
    · cases hk
    · cases hk
  | bin o a b iha ihb =>
    intro z hk
    simp only [kindOf] at hk
    split at hk
    · rename_i x y ha hb
      split at hk
      · rename_i w hw
        split at hk
        · simp only [Option.some.injEq, SK.const.injEq] at hk
          subst hk
          rw [erase_bin, iha ha, ihb hb, (constOp_sound hw).2.2]
        · cases hk
      · cases hk
    · obtain ⟨p, hp, h⟩ := Option.map_eq_some_iff.1 hk
      cases h
    · cases hk
  | call f a ih =>
    intro z hk
    simp only [kindOf] at hk
    split at hk
    · split at hk
      · cases hk
      · cases hk
    · rename_i w ha
      split at hk
      · rename_i hf
        simp only [Option.some.injEq, SK.const.injEq] at hk
        subst hk
        rw [hf.1]
        simp [KEx.erase, Ex.val, Fn.val, ih ha]
      · cases hk
    · cases hk

/-- A conversion that is not rounded. -/
theorem convert_exactly {p : Prec} {v : KVal} {x : ℝ} (h : Convert exactly p v x) : x = v.toReal := by
  cases v with
  | int z => exact h.1
  | real q y => exact h

theorem convertRight_exactly {p : Prec} {o : Op} {v : KVal} {x : ℝ} (h : ConvertRight exactly p o v x) :
    x = v.toReal := by
  cases v with
  | int z => cases o <;> first | exact h | exact h.1
  | real q y => cases o <;> exact h

/-- Without rounding, an expression that passes the check has its real value and nothing else. -/
theorem exact_value {env : Vals} : ∀ {e : KEx} {k : SK} {r : KVal}, kindOf e = some k → Ev exactly env e r →
    r.toReal = e.erase.val env := by
  intro e
  induction e with
  | num q kd =>
    intro k r hk he
    cases he with
    | int hq hz => simp [KVal.toReal, KEx.erase, Ex.val, hq]
    | lit h1 h2 => exact h1
  | var v => intro k r hk he; cases he; rfl
  | neg a ih =>
    intro k r hk he
    have ha : ∃ k', kindOf a = some k' := by
      simp only [kindOf] at hk
      split at hk
      · exact ⟨_, by assumption⟩
      · exact ⟨_, by assumption⟩
      · cases hk
    obtain ⟨k', ha⟩ := ha
    cases he with
    | negInt h hz => simp only [KVal.toReal, KEx.erase, Ex.val, ← ih ha h, Int.cast_neg]
    | negReal h => simp only [KVal.toReal, KEx.erase, Ex.val, ← ih ha h]
  | bin o a b iha ihb =>
    intro k r hk he
    cases he with
    | binInt h1 h2 h3 h4 =>
      have := kind_sound hk (.binInt h1 h2 h3 h4)
      cases k with
      | const z => rw [const_val hk, this]; rfl
      | whole =>
        simp only [kindOf] at hk
        split at hk
        · split at hk
          · split at hk <;> cases hk
          · cases hk
        · obtain ⟨p, hp, h⟩ := Option.map_eq_some_iff.1 hk
          cases h
        · cases hk
      | real p => obtain ⟨x, hx⟩ := this; cases hx
    | binReal h1 h2 h3 h4 h5 h6 h7 =>
      have hab : ∃ k1 k2, kindOf a = some k1 ∧ kindOf b = some k2 := by
        simp only [kindOf] at hk
        split at hk
        · exact ⟨_, _, by assumption, by assumption⟩
        · exact ⟨_, _, by assumption, by assumption⟩
        · cases hk
      obtain ⟨k1, k2, ha, hb⟩ := hab
      rw [erase_bin, ← iha ha h1, ← ihb hb h2, ← convert_exactly h4, ← convertRight_exactly h5]
      exact h7
  | call f a ih =>
    intro k r hk he
    have ha : ∃ k', kindOf a = some k' := by
      simp only [kindOf] at hk
      split at hk
      · exact ⟨_, by assumption⟩
      · exact ⟨_, by assumption⟩
      · cases hk
    obtain ⟨k', ha⟩ := ha
    cases he with
    | call hf h1 h2 h3 =>
      have := ih ha h1
      simp only [KEx.erase, Ex.val, ← this]
      exact h3
    | absInt h1 => simp [KEx.erase, Ex.val, ← ih ha h1, Fn.val, KVal.toReal]
    | floor h1 => simp [KEx.erase, Ex.val, ← ih ha h1, Fn.val, KVal.toReal]
    | trunc h1 =>
      simp only [KEx.erase, Ex.val, ← ih ha h1, Fn.val, KVal.toReal]
      split <;> rfl

/-- The whole numbers taken by `floor` are integers that fit. -/
def FloorsFit (env : Vals) : KEx → Prop
  | .num _ _ => True
  | .var _ => True
  | .neg a => FloorsFit env a
  | .bin _ a b => FloorsFit env a ∧ FloorsFit env b
  | .call f a => FloorsFit env a ∧ (f = .floor → Fits ⌊a.erase.val env⌋)

theorem convert_self (p : Prec) (v : KVal) : Convert exactly p v v.toReal := by
  cases v with
  | int z => exact ⟨rfl, fun _ => rfl⟩
  | real q y => rfl

theorem convertRight_self (p : Prec) (o : Op) (v : KVal) : ConvertRight exactly p o v v.toReal := by
  cases v with
  | int z => cases o <;> first | exact ⟨rfl, fun _ => rfl⟩ | rfl
  | real q y => cases o <;> rfl

/-- An expression that passes the check and is defined has a value. -/
theorem exact_exists {env : Vals} : ∀ {e : KEx} {k : SK}, kindOf e = some k → e.erase.Ok env → FloorsFit env e →
    ∃ r, Ev exactly env e r := by
  intro e
  induction e with
  | num q kd =>
    intro k hk _ _
    cases kd with
    | int =>
      simp only [kindOf] at hk
      split at hk
      · rename_i h
        refine ⟨.int q.num, .int ?_ h.2⟩
        conv_lhs => rw [← Rat.num_div_den q, h.1]
        simp
      · cases hk
    | real p => exact ⟨.real p q, .lit rfl (fun _ => rfl)⟩
  | var v => intro k _ _ _; exact ⟨_, .var v⟩
  | neg a ih =>
    intro k hk hok hfl
    simp only [kindOf] at hk
    split at hk
    · rename_i z ha
      obtain ⟨r, hr⟩ := ih ha hok hfl
      obtain rfl := kind_sound ha hr
      split at hk
      · exact ⟨_, .negInt hr (by assumption)⟩
      · cases hk
    · rename_i p ha
      obtain ⟨r, hr⟩ := ih ha hok hfl
      obtain ⟨x, rfl⟩ := kind_sound ha hr
      exact ⟨_, .negReal hr⟩
    · cases hk
  | bin o a b iha ihb =>
    intro k hk hok hfl
    rw [erase_bin_ok] at hok
    obtain ⟨oka, okb, oko⟩ := hok
    simp only [kindOf] at hk
    split at hk
    · rename_i x y ha hb
      obtain ⟨v, hv⟩ := iha ha oka hfl.1
      obtain ⟨w, hw⟩ := ihb hb okb hfl.2
      obtain rfl := kind_sound ha hv
      obtain rfl := kind_sound hb hw
      split at hk
      · rename_i z hz
        split at hk
        · exact ⟨_, .binInt hv hw (constOp_sound hz).1 (by assumption)⟩
        · cases hk
      · cases hk
    · rename_i x y hno ha hb
      obtain ⟨p, hp, -⟩ := Option.map_eq_some_iff.1 hk
      obtain ⟨v, hv⟩ := iha ha oka hfl.1
      obtain ⟨w, hw⟩ := ihb hb okb hfl.2
      refine ⟨_, .binReal hv hw ?_ (convert_self p v) (convertRight_self p o w) ?_ rfl⟩
      · rw [match_common (kind_sound ha hv) (kind_sound hb hw)]; exact hp
      · rw [exact_value ha hv, exact_value hb hw]; exact oko
    · cases hk
  | call f a ih =>
    intro k hk hok hfl
    simp only [kindOf] at hk
    split at hk
    · rename_i p ha
      obtain ⟨r, hr⟩ := ih ha hok.1 hfl.1
      have hv := exact_value ha hr
      obtain ⟨x, rfl⟩ := kind_sound ha hr
      simp only [KVal.toReal] at hv
      split at hk
      · rename_i hf
        exact ⟨_, .call hf hr (by rw [hv]; exact hok.2) rfl⟩
      · rename_i hf
        cases f with
        | floor => exact ⟨_, .floor hr (by rw [hv]; exact hfl.2 rfl)⟩
        | trunc => exact ⟨_, .trunc hr⟩
        | _ => exact absurd rfl hf
    · rename_i z ha
      obtain ⟨r, hr⟩ := ih ha hok.1 hfl.1
      obtain rfl := kind_sound ha hr
      split at hk
      · rename_i hf
        rw [hf.1]
        exact ⟨_, .absInt hr hf.2⟩
      · cases hk
    · cases hk

/-! ### Programs -/

def kindAsgs (l : List (Var × KEx)) : Bool := l.all (fun p => (kindOf p.2).isSome)

/-- Every expression of the statement passes the check. -/
def KStmt.kinds : KStmt → Bool
  | .asg _ e => (kindOf e).isSome
  | .ifLe a b t e => (kindOf a).isSome && (kindOf b).isSome && kindAsgs t && kindAsgs e

theorem exact_asgs : ∀ {l : List (Var × KEx)} {env env' : Vals}, kindAsgs l = true → EvAsgs exactly env l env' →
    env' = runAsgs env (l.map eraseAsg) := by
  intro l
  induction l with
  | nil => intro env env' _ h; cases h; rfl
  | cons p l ih =>
    intro env env' hk h
    unfold kindAsgs at hk
    rw [List.all_cons, Bool.and_eq_true] at hk
    obtain ⟨k, hk1⟩ := Option.isSome_iff_exists.1 hk.1
    cases h with
    | cons h1 h2 =>
      rw [ih hk.2 h2, exact_value hk1 h1]
      rfl

theorem exact_stmt {s : KStmt} {env env' : Vals} (hk : s.kinds = true) (h : EvStmt exactly env s env') :
    env' = s.erase.run env := by
  cases h with
  | asg h1 =>
    obtain ⟨k, hk1⟩ := Option.isSome_iff_exists.1 hk
    rw [exact_value hk1 h1]
    rfl
  | yes h1 h2 h3 h4 =>
    simp only [KStmt.kinds, Bool.and_eq_true] at hk
    obtain ⟨⟨⟨ka, kb⟩, kt⟩, ke⟩ := hk
    obtain ⟨k1, hk1⟩ := Option.isSome_iff_exists.1 ka
    obtain ⟨k2, hk2⟩ := Option.isSome_iff_exists.1 kb
    rw [exact_value hk1 h1, exact_value hk2 h2] at h3
    rw [KStmt.erase, Stmt.run, if_pos h3]
    exact exact_asgs kt h4
  | no h1 h2 h3 h4 =>
    simp only [KStmt.kinds, Bool.and_eq_true] at hk
    obtain ⟨⟨⟨ka, kb⟩, kt⟩, ke⟩ := hk
    obtain ⟨k1, hk1⟩ := Option.isSome_iff_exists.1 ka
    obtain ⟨k2, hk2⟩ := Option.isSome_iff_exists.1 kb
    rw [exact_value hk1 h1, exact_value hk2 h2] at h3
    rw [KStmt.erase, Stmt.run, if_neg h3]
    exact exact_asgs ke h4

theorem exact_run : ∀ {p : List KStmt} {env env' : Vals}, (∀ s ∈ p, s.kinds = true) → EvRun exactly env p env' →
    env' = run env (p.map KStmt.erase) := by
  intro p
  induction p with
  | nil => intro env env' _ h; cases h; rfl
  | cons s p ih =>
    intro env env' hk h
    cases h with
    | cons h1 h2 =>
      rw [ih (fun x hx => hk x (List.mem_cons_of_mem _ hx)) h2, exact_stmt (hk s (List.mem_cons_self ..)) h1]
      rfl

def FloorsFitAsgs (env : Vals) : List (Var × KEx) → Prop
  | [] => True
  | p :: l => FloorsFit env p.2 ∧ FloorsFitAsgs (Function.update env p.1 (p.2.erase.val env)) l

def KStmt.FloorsFit (env : Vals) : KStmt → Prop
  | .asg _ e => Rl.FloorsFit env e
  | .ifLe a b t e => Rl.FloorsFit env a ∧ Rl.FloorsFit env b ∧ FloorsFitAsgs env t ∧ FloorsFitAsgs env e

def FloorsFitRun (env : Vals) : List KStmt → Prop
  | [] => True
  | s :: p => s.FloorsFit env ∧ FloorsFitRun (s.erase.run env) p

theorem exact_asgs_exists : ∀ {l : List (Var × KEx)} {env : Vals}, kindAsgs l = true → OkAsgs env (l.map eraseAsg) →
    FloorsFitAsgs env l → EvAsgs exactly env l (runAsgs env (l.map eraseAsg)) := by
  intro l
  induction l with
  | nil => intro env _ _ _; exact .nil env
  | cons p l ih =>
    intro env hk hok hfl
    unfold kindAsgs at hk
    rw [List.all_cons, Bool.and_eq_true] at hk
    obtain ⟨k, hk1⟩ := Option.isSome_iff_exists.1 hk.1
    obtain ⟨r, hr⟩ := exact_exists hk1 hok.1 hfl.1
    refine .cons hr ?_
    rw [exact_value hk1 hr]
    exact ih hk.2 hok.2 hfl.2

theorem exact_stmt_exists {s : KStmt} {env : Vals} (hk : s.kinds = true) (hok : s.erase.Ok env)
    (hfl : s.FloorsFit env) : EvStmt exactly env s (s.erase.run env) := by
  cases s with
  | asg v e =>
    obtain ⟨k, hk1⟩ := Option.isSome_iff_exists.1 hk
    obtain ⟨r, hr⟩ := exact_exists hk1 hok hfl
    have := EvStmt.asg (v := v) hr
    rw [exact_value hk1 hr] at this
    exact this
  | ifLe a b t e =>
    simp only [KStmt.kinds, Bool.and_eq_true] at hk
    obtain ⟨⟨⟨ka, kb⟩, kt⟩, ke⟩ := hk
    obtain ⟨k1, hk1⟩ := Option.isSome_iff_exists.1 ka
    obtain ⟨k2, hk2⟩ := Option.isSome_iff_exists.1 kb
    obtain ⟨x, hx⟩ := exact_exists hk1 hok.1 hfl.1
    obtain ⟨y, hy⟩ := exact_exists hk2 hok.2.1 hfl.2.1
    rw [KStmt.erase, Stmt.run]
    split
    · rename_i h
      refine .yes hx hy ?_ (exact_asgs_exists kt (hok.2.2.1 h) hfl.2.2.1)
      rw [exact_value hk1 hx, exact_value hk2 hy]
      exact h
    · rename_i h
      refine .no hx hy ?_ (exact_asgs_exists ke (hok.2.2.2 h) hfl.2.2.2)
      rw [exact_value hk1 hx, exact_value hk2 hy]
      exact h

theorem exact_run_exists : ∀ {p : List KStmt} {env : Vals}, (∀ s ∈ p, s.kinds = true) →
    OkRun env (p.map KStmt.erase) → FloorsFitRun env p → EvRun exactly env p (run env (p.map KStmt.erase)) := by
  intro p
  induction p with
  | nil => intro env _ _ _; exact .nil env
  | cons s p ih =>
    intro env hk hok hfl
    exact .cons (exact_stmt_exists (hk s (List.mem_cons_self ..)) hok.1 hfl.1)
      (ih (fun x hx => hk x (List.mem_cons_of_mem _ hx)) hok.2 hfl.2)

/-! ### Exact arithmetic is a case of rounding -/

theorem exactly_ieee {p : Prec} {x y : ℝ} (h : exactly p x y) : ieee p x y := by
  obtain rfl : y = x := h
  cases p with
  | single =>
    intro _
    have := abs_nonneg y
    rw [sub_self, abs_zero]
    positivity
  | double =>
    show |y - y| ≤ 2⁻¹ ^ 52 * |y|
    have := abs_nonneg y
    rw [sub_self, abs_zero]
    positivity

theorem convert_mono {R S : Rounding} (h : ∀ p x y, R p x y → S p x y) {p : Prec} {v : KVal} {x : ℝ}
    (hc : Convert R p v x) : Convert S p v x := by
  cases v with
  | int z => exact ⟨h _ _ _ hc.1, hc.2⟩
  | real q y => exact hc

theorem convertRight_mono {R S : Rounding} (h : ∀ p x y, R p x y → S p x y) {p : Prec} {o : Op} {v : KVal} {x : ℝ}
    (hc : ConvertRight R p o v x) : ConvertRight S p o v x := by
  cases v with
  | int z => cases o <;> first | exact hc | exact convert_mono h (v := .int z) hc
  | real q y => cases o <;> exact hc

theorem Ev.mono {R S : Rounding} (h : ∀ p x y, R p x y → S p x y) {env : Vals} {e : KEx} {r : KVal}
    (he : Ev R env e r) : Ev S env e r := by
  induction he with
  | int a b => exact .int a b
  | lit a b => exact .lit (h _ _ _ a) b
  | var v => exact .var v
  | negInt _ a ih => exact .negInt ih a
  | negReal _ ih => exact .negReal ih
  | binInt _ _ a b iha ihb => exact .binInt iha ihb a b
  | binReal _ _ a b c d f iha ihb =>
    exact .binReal iha ihb a (convert_mono h b) (convertRight_mono h c) d (h _ _ _ f)
  | call a _ b c ih => exact .call a ih b (h _ _ _ c)
  | absInt _ a ih => exact .absInt ih a
  | floor _ a ih => exact .floor ih a
  | trunc _ ih => exact .trunc ih

theorem EvAsgs.mono {R S : Rounding} (h : ∀ p x y, R p x y → S p x y) {env env' : Vals} {l : List (Var × KEx)}
    (he : EvAsgs R env l env') : EvAsgs S env l env' := by
  induction he with
  | nil => exact .nil _
  | cons a _ ih => exact .cons (a.mono h) ih

theorem EvRun.mono {R S : Rounding} (h : ∀ p x y, R p x y → S p x y) {env env' : Vals} {p : List KStmt}
    (he : EvRun R env p env') : EvRun S env p env' := by
  induction he with
  | nil => exact .nil _
  | cons a _ ih =>
    refine .cons ?_ ih
    cases a with
    | asg a => exact .asg (a.mono h)
    | yes a b c d => exact .yes (a.mono h) (b.mono h) c (d.mono h)
    | no a b c d => exact .no (a.mono h) (b.mono h) c (d.mono h)

end Rl
end PyBox
