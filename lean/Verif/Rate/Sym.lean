import Verif.Rate.Lang
import Mathlib.Data.List.Sort
import Mathlib.Tactic.FieldSimp
import Mathlib.Tactic.Ring

/-!
# Symbolic execution and comparison of rate programs
-/

namespace PyBox
namespace Rl

/-! ### Substitution -/

/-- What is known about the variables, in terms of the inputs. -/
abbrev Sy := List (Var × Ex)

def Sy.get (σ : Sy) (v : Var) : Ex :=
  match σ with
  | [] => .var v
  | p :: σ => if p.1 = v then p.2 else Sy.get σ v

def Ex.subst (σ : Sy) : Ex → Ex
  | .num q => .num q
  | .var v => σ.get v
  | .neg a => .neg (a.subst σ)
  | .add a b => .add (a.subst σ) (b.subst σ)
  | .sub a b => .sub (a.subst σ) (b.subst σ)
  | .mul a b => .mul (a.subst σ) (b.subst σ)
  | .div a b => .div (a.subst σ) (b.subst σ)
  | .pow a b => .pow (a.subst σ) (b.subst σ)
  | .call f a => .call f (a.subst σ)
  | .ite a b t e => .ite (a.subst σ) (b.subst σ) (t.subst σ) (e.subst σ)

/-- The values described by `σ`. -/
noncomputable def Sy.vals (σ : Sy) (env : Vals) : Vals := fun v => (σ.get v).val env

theorem Ex.val_subst (σ : Sy) (env : Vals) (e : Ex) : (e.subst σ).val env = e.val (σ.vals env) := by
  induction e with
  | num q => rfl
  | var v => rfl
  | neg a iha => simp [Ex.subst, Ex.val, iha]
  | add a b iha ihb => simp [Ex.subst, Ex.val, iha, ihb]
  | sub a b iha ihb => simp [Ex.subst, Ex.val, iha, ihb]
  | mul a b iha ihb => simp [Ex.subst, Ex.val, iha, ihb]
  | div a b iha ihb => simp [Ex.subst, Ex.val, iha, ihb]
  | pow a b iha ihb => simp [Ex.subst, Ex.val, iha, ihb]
  | call f a iha => simp [Ex.subst, Ex.val, iha]
  | ite a b t e iha ihb iht ihe => simp [Ex.subst, Ex.val, iha, ihb, iht, ihe]

theorem Ex.ok_subst (σ : Sy) (env : Vals) (e : Ex) (h : ∀ v, (σ.get v).Ok env) :
    (e.subst σ).Ok env ↔ e.Ok (σ.vals env) := by
  induction e with
  | num q => simp [Ex.subst, Ex.Ok]
  | var v => simp [Ex.subst, Ex.Ok, h v]
  | neg a iha => simp [Ex.subst, Ex.Ok, iha]
  | add a b iha ihb => simp [Ex.subst, Ex.Ok, iha, ihb]
  | sub a b iha ihb => simp [Ex.subst, Ex.Ok, iha, ihb]
  | mul a b iha ihb => simp [Ex.subst, Ex.Ok, iha, ihb]
  | div a b iha ihb => simp [Ex.subst, Ex.Ok, iha, ihb, Ex.val_subst]
  | pow a b iha ihb => simp [Ex.subst, Ex.Ok, iha, ihb, Ex.val_subst]
  | call f a iha => simp [Ex.subst, Ex.Ok, iha, Ex.val_subst]
  | ite a b t e iha ihb iht ihe => simp [Ex.subst, Ex.Ok, iha, ihb, iht, ihe, Ex.val_subst]

/-! ### Execution -/

def symAsgs (σ : Sy) (l : List (Var × Ex)) : Sy := l.foldl (fun σ p => (p.1, p.2.subst σ) :: σ) σ

def symStmt (σ : Sy) : Stmt → Sy
  | .asg v e => (v, e.subst σ) :: σ
  | .ifLe a b t e =>
    ((t ++ e).map Prod.fst).map (fun v =>
      (v, .ite (a.subst σ) (b.subst σ) ((symAsgs σ t).get v) ((symAsgs σ e).get v))) ++ σ

def symRun (σ : Sy) (p : List Stmt) : Sy := p.foldl symStmt σ

theorem Sy.vals_cons (σ : Sy) (env : Vals) (v : Var) (e : Ex) :
    Sy.vals ((v, e.subst σ) :: σ) env = Function.update (σ.vals env) v (e.val (σ.vals env)) := by
  funext w
  unfold Sy.vals
  rw [Sy.get]
  by_cases h : v = w
  · subst h; rw [if_pos rfl, Function.update_self, Ex.val_subst]; rfl
  · rw [if_neg h, Function.update_of_ne (Ne.symm h)]

theorem symAsgs_vals (env : Vals) (l : List (Var × Ex)) : ∀ σ : Sy,
    (symAsgs σ l).vals env = runAsgs (σ.vals env) l := by
  induction l with
  | nil => intro σ; rfl
  | cons p l ih =>
    intro σ
    have := ih ((p.1, p.2.subst σ) :: σ)
    rw [Sy.vals_cons] at this
    exact this

theorem runAsgs_not_mem (l : List (Var × Ex)) (v : Var) (h : v ∉ l.map Prod.fst) : ∀ env : Vals,
    runAsgs env l v = env v := by
  induction l with
  | nil => intro env; rfl
  | cons p l ih =>
    intro env
    rw [List.map_cons, List.mem_cons, not_or] at h
    have := ih h.2 (Function.update env p.1 (p.2.val env))
    rw [Function.update_of_ne h.1] at this
    exact this

theorem get_map_append (f : Var → Ex) (l : List Var) (σ : Sy) (v : Var) :
    Sy.get (l.map (fun v => (v, f v)) ++ σ) v = if v ∈ l then f v else σ.get v := by
  induction l with
  | nil => simp
  | cons w l ih =>
    rw [List.map_cons, List.cons_append, Sy.get]
    by_cases h : w = v
    · subst h; simp
    · rw [if_neg h, ih]
      have : (v ∈ w :: l) ↔ v ∈ l := by
        rw [List.mem_cons]; exact ⟨fun hh => hh.resolve_left (Ne.symm h), Or.inr⟩
      simp only [this]

theorem symStmt_vals (σ : Sy) (env : Vals) (s : Stmt) :
    (symStmt σ s).vals env = s.run (σ.vals env) := by
  cases s with
  | asg v e => exact Sy.vals_cons σ env v e
  | ifLe a b t e =>
    funext v
    unfold symStmt Sy.vals
    rw [get_map_append (fun v => .ite (a.subst σ) (b.subst σ) ((symAsgs σ t).get v) ((symAsgs σ e).get v))]
    have ht := congrFun (symAsgs_vals env t σ) v
    have he := congrFun (symAsgs_vals env e σ) v
    unfold Sy.vals at ht he
    rw [Stmt.run]
    by_cases hv : v ∈ (t ++ e).map Prod.fst
    · rw [if_pos hv, Ex.val, Ex.val_subst, Ex.val_subst]
      unfold Sy.vals
      split
      · rw [ht]
      · rw [he]
    · rw [if_neg hv]
      rw [List.map_append, List.mem_append, not_or] at hv
      split
      · rw [runAsgs_not_mem t v hv.1]
      · rw [runAsgs_not_mem e v hv.2]

/-- Symbolic execution is correct. -/
theorem symRun_vals (env : Vals) (p : List Stmt) : ∀ σ : Sy,
    (symRun σ p).vals env = run (σ.vals env) p := by
  induction p with
  | nil => intro σ; rfl
  | cons s p ih =>
    intro σ
    have := ih (symStmt σ s)
    rw [symStmt_vals] at this
    exact this

/-! ### Normal form of products -/

/-- An ordering key. -/
def Ex.key : Ex → List Nat
  | .num q => [0, q.num.natAbs, if q.num < 0 then 1 else 0, q.den]
  | .var v => 1 :: (v.name.map Char.toNat ++ [0, v.idx.getD 0, if v.idx.isSome then 1 else 0])
  | .neg a => 2 :: a.key
  | .add a b => 3 :: (a.key ++ b.key)
  | .sub a b => 4 :: (a.key ++ b.key)
  | .mul a b => 5 :: (a.key ++ b.key)
  | .div a b => 6 :: (a.key ++ b.key)
  | .pow a b => 7 :: (a.key ++ b.key)
  | .call f a => 8 :: (match f with
      | .exp => 0 | .log10 => 1 | .log => 2 | .abs => 3 | .sqrt => 4 | .cos => 5 | .sin => 6
      | .arccos => 7 | .arctan => 8 | .trunc => 9 | .floor => 10) :: a.key
  | .ite a b t e => 9 :: (a.key ++ b.key ++ t.key ++ e.key)

def lexLe : List Nat → List Nat → Bool
  | [], _ => true
  | _ :: _, [] => false
  | a :: s, b :: t => if a < b then true else if b < a then false else lexLe s t

/-- Insert by key. -/
def insertEx (x : Ex) : List Ex → List Ex
  | [] => [x]
  | y :: l => if lexLe x.key y.key then x :: y :: l else y :: insertEx x l

def sortEx : List Ex → List Ex
  | [] => []
  | x :: l => insertEx x (sortEx l)

theorem insertEx_perm (x : Ex) (l : List Ex) : (insertEx x l).Perm (x :: l) := by
  induction l with
  | nil => exact .refl _
  | cons y l ih =>
    rw [insertEx]
    split
    · exact .refl _
    · exact (ih.cons y).trans (.swap ..)

theorem sortEx_perm (l : List Ex) : (sortEx l).Perm l := by
  induction l with
  | nil => exact .refl _
  | cons x l ih => exact (insertEx_perm x _).trans (ih.cons x)

/-- The product of a coefficient and factors. -/
def build (p : ℚ × List Ex) : Ex := (sortEx p.2).foldl .mul (.num p.1)

/-- Coefficient and factors of an expression, with normal forms inside. -/
def factors : Ex → ℚ × List Ex
  | .num q => (q, [])
  | .var v => (1, [.var v])
  | .neg a => (-(factors a).1, (factors a).2)
  | .add a b => (1, [.add (build (factors a)) (build (factors b))])
  | .sub a b => (1, [.sub (build (factors a)) (build (factors b))])
  | .mul a b => ((factors a).1 * (factors b).1, (factors a).2 ++ (factors b).2)
  | .div a b => ((factors a).1 / (factors b).1,
      (factors a).2 ++ (factors b).2.map (fun x => .div (.num 1) x))
  | .pow a b => (1, [.pow (build (factors a)) (build (factors b))])
  | .call f a => (1, [.call f (build (factors a))])
  | .ite a b t e => (1, [.ite (build (factors a)) (build (factors b)) (build (factors t))
      (build (factors e))])

def norm (e : Ex) : Ex := build (factors e)

theorem foldl_mul_val (env : Vals) (l : List Ex) : ∀ x : Ex,
    (l.foldl .mul x).val env = x.val env * (l.map (Ex.val env)).prod := by
  induction l with
  | nil => intro x; simp
  | cons y l ih => intro x; rw [List.foldl_cons, ih]; simp [Ex.val, mul_assoc]

theorem build_val (env : Vals) (p : ℚ × List Ex) :
    (build p).val env = (p.1 : ℝ) * (p.2.map (Ex.val env)).prod := by
  unfold build
  rw [foldl_mul_val, ((sortEx_perm p.2).map _).prod_eq]
  rfl

theorem prod_inv_map (env : Vals) (l : List Ex) :
    ((l.map (fun x => Ex.div (.num 1) x)).map (Ex.val env)).prod = ((l.map (Ex.val env)).prod)⁻¹ := by
  induction l with
  | nil => simp
  | cons x l ih =>
    simp only [List.map_cons, List.prod_cons, ih, Ex.val, mul_inv]
    push_cast
    rw [one_div]

theorem factors_val (env : Vals) (e : Ex) :
    ((factors e).1 : ℝ) * ((factors e).2.map (Ex.val env)).prod = e.val env := by
  induction e with
  | num q => simp [factors, Ex.val]
  | var v => simp [factors, Ex.val]
  | neg a iha =>
    simp only [factors, Ex.val, ← iha]
    push_cast; ring
  | add a b iha ihb => simp [factors, Ex.val, build_val, iha, ihb]
  | sub a b iha ihb => simp [factors, Ex.val, build_val, iha, ihb]
  | mul a b iha ihb =>
    simp only [factors, Ex.val, ← iha, ← ihb, List.map_append, List.prod_append]
    push_cast; ring
  | div a b iha ihb =>
    simp only [factors, Ex.val, ← iha, ← ihb, List.map_append, List.prod_append, prod_inv_map]
    push_cast
    rw [div_eq_mul_inv, div_eq_mul_inv, mul_inv]
    ring
  | pow a b iha ihb => simp [factors, Ex.val, build_val, iha, ihb]
  | call f a iha => simp [factors, Ex.val, build_val, iha]
  | ite a b t e iha ihb iht ihe => simp [factors, Ex.val, build_val, iha, ihb, iht, ihe]

theorem norm_val (env : Vals) (e : Ex) : (norm e).val env = e.val env := by
  unfold norm
  rw [build_val, factors_val]

end Rl
end PyBox
