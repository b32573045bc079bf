import Mathlib.Analysis.SpecialFunctions.Pow.Real

/-!
# Generated programs

The code generators of `/repo/Parse_eqn_file.py` write text such as
`    loss_gain_list[3]=-1.0*r[7]*2.0+r[1]`.  A right-hand side is modelled as the list of tokens
written; a program is a list of lines.  The evaluator has the precedence of Python and Fortran for
the operators that are emitted (`**` over `*` over binary and leading `+`/`-`, left to right).
Arithmetic is exact real arithmetic.
-/

namespace PyBox

/-- An operand: `y[i]`, `y[i]**s`, `r[e]` or a number. -/
inductive Fac where
  | y (i : Nat)
  | ypow (i : Nat) (s : ℚ)
  | r (e : Nat)
  | num (q : ℚ)
  deriving DecidableEq

/-- Tokens of a right-hand side. `cont` is the Fortran continuation `' & \n    '`. -/
inductive Tok where
  | fac (f : Fac)
  | mul
  | plus
  | minus
  | cont
  deriving DecidableEq

/-- Arrays visible to the generated code. -/
structure Env where
  y : Nat → ℝ
  r : Nat → ℝ

/-- Value of an operand. `x**s` is the real power. -/
noncomputable def Fac.val (env : Env) : Fac → ℝ
  | .y i => env.y i
  | .ypow i s => env.y i ^ (s : ℝ)
  | .r e => env.r e
  | .num q => (q : ℝ)

/-- Evaluate the rest of an expression: `acc` is the sum of finished terms, `prod` the product of
the current term. -/
noncomputable def evalTail (env : Env) : ℝ → ℝ → List Tok → Option ℝ
  | acc, prod, [] => some (acc + prod)
  | acc, prod, .mul :: .fac f :: ts => evalTail env acc (prod * f.val env) ts
  | acc, prod, .plus :: .fac f :: ts => evalTail env (acc + prod) (f.val env) ts
  | acc, prod, .minus :: .fac f :: ts => evalTail env (acc + prod) (-f.val env) ts
  | _, _, _ => none

/-- Evaluate an expression with an optional leading sign; `none` is a syntax error. -/
noncomputable def evalExpr (env : Env) : List Tok → Option ℝ
  | .fac f :: ts => evalTail env 0 (f.val env) ts
  | .plus :: .fac f :: ts => evalTail env 0 (f.val env) ts
  | .minus :: .fac f :: ts => evalTail env 0 (-f.val env) ts
  | _ => none

/-- Target language. -/
inductive Lang where
  | python
  | fortran
  deriving DecidableEq

/-- Fortran arrays are numbered from 1. -/
def Env.shift (env : Env) : Env := ⟨fun i => env.y (i - 1), fun e => env.r (e - 1)⟩

/-- Value of a right-hand side.  Fortran joins continued lines; in Python a line break inside an
unparenthesised expression is a syntax error. -/
noncomputable def evalRhs (lang : Lang) (env : Env) (ts : List Tok) : Option ℝ :=
  match lang with
  | .python => evalExpr env ts
  | .fortran => evalExpr env.shift (ts.filter (fun t => !decide (t = .cont)))

/-- OpenMP directives written by the Fortran generators. -/
inductive Omp where
  | parallel
  | single
  | endSingle
  | endParallel
  deriving DecidableEq

/-- One line of a generated routine body; `κ` is the type of array subscripts. -/
inductive Line (κ : Type) where
  | blank
  | asg (k : κ) (rhs : List Tok)
  | omp (d : Omp)

/-- Array offset of a subscript as written in the source. -/
class Subscript (κ : Type) where
  offset : Lang → κ → κ

instance : Subscript Nat := ⟨fun l i => match l with | .python => i | .fortran => i - 1⟩
instance : Subscript (Nat × Nat) :=
  ⟨fun l p => match l with | .python => p | .fortran => (p.1 - 1, p.2 - 1)⟩

/-- Execute a routine body serially on an array; directives are comments for a serial run. -/
noncomputable def exec {κ : Type} [DecidableEq κ] [Subscript κ] (lang : Lang) (env : Env) :
    List (Line κ) → (κ → ℝ) → Option (κ → ℝ)
  | [], a => some a
  | .blank :: p, a => exec lang env p a
  | .omp _ :: p, a => exec lang env p a
  | .asg k rhs :: p, a =>
    match evalRhs lang env rhs with
    | some v => exec lang env p (Function.update a (Subscript.offset lang k) v)
    | none => none

end PyBox
