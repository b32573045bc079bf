import Verif.Aerosol.Fortran
import Verif.Rate.Sums

/-!
# Rounding in the generated partitioning routine

The routines of `Aerosol/Fortran.lean` run with the rounding of `Rate/Kinds.lean`: every operation on real numbers is
rounded to double precision, sums are computed in any order and grouping. The reader of the text does not keep the kind
of a literal (`1.33D0`, `3.1415927`): any literal may be off by a rounding to single precision unless single precision
represents it. The range of double precision is unlimited. Operations on integers are exact.

The passes of the loop are executed one after the other. At the start of a pass the private variables contain anything of
their type.
-/

namespace PyBox
namespace Ft

open Rl Spec

/-- The value of a literal. -/
def LitRounds (q : ℚ) (x : ℝ) : Prop := ieee .single q x ∧ (Exact .single q → x = q)

/-- An operation on real numbers, element by element. -/
def Op2 (f : ℝ → ℝ → ℝ) (u w v : V) : Prop :=
  match u, w with
  | .arr l, .arr m => l.length = m.length ∧
      ∃ r, v = .arr r ∧ List.Forall₂ (fun (p : ℝ × ℝ) z => ieee .double (f p.1 p.2) z) (l.zip m) r
  | .arr l, w => ∃ y r, w.num = some y ∧ v = .arr r ∧ List.Forall₂ (fun x z => ieee .double (f x y) z) l r
  | u, .arr m => ∃ x r, u.num = some x ∧ v = .arr r ∧ List.Forall₂ (fun y z => ieee .double (f x y) z) m r
  | u, w => ∃ x y z, u.num = some x ∧ w.num = some y ∧ v = .real z ∧ ieee .double (f x y) z

/-- An operation that integers have too. -/
def OpInt (g : ℤ → ℤ → ℤ) (f : ℝ → ℝ → ℝ) (u w v : V) : Prop :=
  match u, w with
  | .int a, .int b => v = .int (g a b)
  | u, w => Op2 f u w v

/-- Division and powers of two integers have no meaning here. -/
def OpReal (f : ℝ → ℝ → ℝ) (u w v : V) : Prop :=
  match u, w with
  | .int _, .int _ => False
  | u, w => Op2 f u w v

/-- The sum of the elements of an array. -/
def SumOf (l : List ℝ) (s : ℝ) : Prop := (l = [] ∧ s = 0) ∨ RoundedSum ieee l s

/-- `v` may be the computed value of the expression. Variables, elements and sections are read without error. -/
def Ex.Rounded (σ : Store) : Ex → V → Prop
  | .int n, v => v = .int n
  | .real q, v => ∃ x, v = .real x ∧ LitRounds q x
  | .var x, v => (Ex.var x).val True σ = some v
  | .all x, v => (Ex.all x).val True σ = some v
  | .elem x i, v => (Ex.elem x i).val True σ = some v
  | .sec x a b, v => (Ex.sec x a b).val True σ = some v
  | .add a b, v => ∃ u w, a.Rounded σ u ∧ b.Rounded σ w ∧ OpInt (· + ·) (· + ·) u w v
  | .sub a b, v => ∃ u w, a.Rounded σ u ∧ b.Rounded σ w ∧ OpInt (· - ·) (· - ·) u w v
  | .mul a b, v => ∃ u w, a.Rounded σ u ∧ b.Rounded σ w ∧ OpInt (· * ·) (· * ·) u w v
  | .div a b, v => ∃ u w, a.Rounded σ u ∧ b.Rounded σ w ∧ OpReal (· / ·) u w v
  | .pow a b, v => ∃ u w, a.Rounded σ u ∧ b.Rounded σ w ∧ OpReal (fun x y => Real.rpow x y) u w v
  | .exp a, v => ∃ u, a.Rounded σ u ∧ match u with
    | .real x => ∃ z, v = .real z ∧ ieee .double (Real.exp x) z
    | .arr l => ∃ r, v = .arr r ∧ List.Forall₂ (fun x z => ieee .double (Real.exp x) z) l r
    | _ => False
  | .sum a, v => ∃ l s, a.Rounded σ (.arr l) ∧ v = .real s ∧ SumOf l s
  | .rowSums x, v => match σ x with
    | .mat n m f => ∃ r, v = .arr r ∧
        List.Forall₂ (fun i s => SumOf ((List.range m).map (fun j => f (i + 1) (j + 1))) s) (List.range n) r
    | _ => False

/-- What an assignment of `v` stores in its variable, see `Stmt.step`. -/
noncomputable def Target.assign (strict : Prop) (σ : Store) (t : Target) (v : V) : Option V :=
  match t with
    | .var x => match σ x, v with
      | .int _, .int z => some (.int z)
      | .real _, v => v.num.map V.real
      | .arr l, .arr r => if r.length = l.length then some (.arr r) else none
      | _, _ => none
    | .all x => match σ x, v with
      | .arr l, .arr r => if r.length = l.length then some (.arr r) else none
      | .arr l, v => v.num.map (fun y => .arr (l.map (fun _ => y)))
      | _, _ => none
    | .all2 x => match σ x with
      | .mat n m _ => v.num.map (fun y => .mat n m (fun _ _ => y))
      | _ => none
    | .elem x i => (i.val strict σ).bind (fun k => match σ x, k with
      | .arr l, .int k => v.num.bind (fun y =>
          if inside l.length k then some (.arr (l.set (k.toNat - 1) y)) else none)
      | _, _ => none)
    | .elem2 x i j => (i.val strict σ).bind (fun k => (j.val strict σ).bind (fun k' => match σ x, k, k' with
      | .mat n m f, .int k, .int k' => v.num.bind (fun y =>
          if inside n k ∧ inside m k' then
            some (.mat n m (Function.update f k.toNat (Function.update (f k.toNat) k'.toNat y))) else none)
      | _, _, _ => none))
    | .sec x a b => (a.val strict σ).bind (fun p => (b.val strict σ).bind (fun q => match σ x, p, q, v with
      | .arr l, .int p, .int q, .arr r =>
          (section? l p q).bind (fun old =>
            if old.length = r.length then
              (if q < p then some (.arr l) else some (.arr (l.take (p.toNat - 1) ++ r ++ l.drop q.toNat)))
            else none)
      | _, _, _, _ => none))

theorem step_eq_assign (strict : Prop) (s : Stmt) (σ : Store) :
    s.step strict σ = (s.rhs.val strict σ).bind (s.target.assign strict σ) := rfl

/-- Statements executed one after the other. -/
inductive RoundedRun : List Stmt → Store → Store → Prop
  | nil (σ : Store) : RoundedRun [] σ σ
  | cons {s : Stmt} {p : List Stmt} {σ τ : Store} {w v : V} : s.rhs.Rounded σ w → s.target.assign True σ w = some v →
      RoundedRun p (Function.update σ s.target.name v) τ → RoundedRun (s :: p) σ τ

/-- The pass with counter `b`; the thread's copies of the private variables contain anything of their type. -/
def Routine.RoundedPass (R : Routine) (b : ℕ) (σ σ' : Store) : Prop :=
  ∃ τ τ', (∀ x ∉ R.loop.priv, τ x = σ x) ∧
    (∀ x ∈ R.loop.priv, ∀ d, R.decls[x]? = some d → d.accepts (τ x)) ∧
    RoundedRun R.loop.body (Function.update τ R.loop.counter (.int b)) τ' ∧
    σ' = fun x => if x ∈ R.loop.priv then σ x else τ' x

/-- Passes one after the other. -/
inductive Routine.RoundedPasses (R : Routine) : List ℕ → Store → Store → Prop
  | nil (σ : Store) : R.RoundedPasses [] σ σ
  | cons {b : ℕ} {bs : List ℕ} {σ σ' τ : Store} : R.RoundedPass b σ σ' → R.RoundedPasses bs σ' τ →
      R.RoundedPasses (b :: bs) σ τ

/-- Memory before the call: real parameters are rounded, other variables as in `Routine.blank`. -/
def Routine.RoundedBlank (R : Routine) (g : Junk) (β : Store) : Prop :=
  ∀ x, (∃ d q, R.decls[x]? = some d ∧ d.role = .const (.real q) ∧ d.kind = .real ∧ ∃ y, β x = .real y ∧ LitRounds q y) ∨
    ((∀ d q, R.decls[x]? = some d → d.role = .const (.real q) → d.kind ≠ .real) ∧ β x = R.blank g x)

/-- `out` may be returned by a call, see `Routine.call`. -/
def Routine.RoundedCall (R : Routine) (g : Junk) (args out : List V) : Prop :=
  ∃ (β σ₀ σ₁ σ₂ σ₃ : Store) (a b : ℕ), R.RoundedBlank g β ∧ bindArgs R R.args args β = some σ₀ ∧
    RoundedRun R.pre σ₀ σ₁ ∧ R.loop.first.val True σ₁ = some (.int a) ∧ R.loop.last.val True σ₁ = some (.int b) ∧
    R.RoundedPasses (List.range' a (b + 1 - a)) σ₁ σ₂ ∧ RoundedRun R.post σ₂ σ₃ ∧ out = results R σ₃

end Ft
end PyBox
