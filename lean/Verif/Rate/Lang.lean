import Verif.Rate.Sources
import Verif.Parse.Model
import Mathlib.Analysis.SpecialFunctions.Pow.Real
import Mathlib.Analysis.SpecialFunctions.Trigonometric.Arctan
import Mathlib.Analysis.SpecialFunctions.Trigonometric.Inverse

/-!
# The language of the generated rate files

The fixed part of `Rate_coefficients.py`, `Rate_coefficients_numba.py` and `Rate_coefficients.f90`
is read from its text: comments and declarations are removed, statements are assignments and one
`if a <= b ... else ...`.  Expressions have the precedence rules of the language: in Python a sign
binds tighter than `*` and looser than `**`; in Fortran a sign stands at the head of a sum (where it
binds looser than `*`) and, as an extension of GNU Fortran, after `*`, `/` and `**`.
Fortran names are compared without case.

Arithmetic is exact real arithmetic: number literals stand for their decimal value (the single
precision of Fortran `E` literals is not modelled).
-/

namespace PyBox
namespace Rl

/-- The three writers. -/
inductive Backend where
  | python
  | numba
  | fortran
  deriving DecidableEq

/-- Mathematical functions. -/
inductive Fn where
  | exp | log10 | log | abs | sqrt | cos | sin | arccos | arctan | trunc | floor
  deriving DecidableEq

/-- A scalar or an array element with literal subscript. -/
structure Var where
  name : Str
  idx : Option Nat
  deriving DecidableEq

inductive Ex where
  | num (q : ℚ)
  | var (v : Var)
  | neg (a : Ex)
  | add (a b : Ex)
  | sub (a b : Ex)
  | mul (a b : Ex)
  | div (a b : Ex)
  | pow (a b : Ex)
  | call (f : Fn) (a : Ex)
  /-- `t` if `a <= b`, else `e`; not written by the generators, used for symbolic execution. -/
  | ite (a b t e : Ex)
  deriving DecidableEq

/-! ### Tokens -/

inductive Tk where
  | num (q : ℚ)
  | id (s : Str)
  | sym (c : Char)
  | pow
  | le
  deriving DecidableEq

def isLetter (c : Char) : Bool := c.isAlpha || c == '_'

def isIdent (c : Char) : Bool := isLetter c || isDigit c || c == '.'

/-- The exponent letters of a language. -/
def isExpLetter (b : Backend) (c : Char) : Bool :=
  c == 'E' || c == 'e' || (b == .fortran && (c == 'D' || c == 'd'))

/-- The exponent after a mantissa: value and rest of the text. -/
def lexExp (b : Backend) (s : Str) : Int × Str :=
  match s with
  | c :: t =>
    if isExpLetter b c then
      match t with
      | '+' :: u => ((digitsVal (u.takeWhile isDigit) : Int), u.dropWhile isDigit)
      | '-' :: u => (-(digitsVal (u.takeWhile isDigit) : Int), u.dropWhile isDigit)
      | u => ((digitsVal (u.takeWhile isDigit) : Int), u.dropWhile isDigit)
    else (0, s)
  | [] => (0, s)

/-- `10**e`. -/
def tenPow : Int → ℚ
  | .ofNat n => (10 ^ n : Nat)
  | .negSucc n => 1 / (10 ^ (n + 1) : Nat)

/-- A number literal that starts with a digit. -/
def lexNum (b : Backend) (s : Str) : ℚ × Str :=
  let whole := s.takeWhile isDigit
  let r := s.dropWhile isDigit
  let (frac, r) := match r with
    | '.' :: t => (t.takeWhile isDigit, t.dropWhile isDigit)
    | _ => ([], r)
  let (e, r) := lexExp b r
  ((digitsVal (whole ++ frac) : ℚ) * tenPow (e - frac.length), r)

/-- Split a line into tokens. -/
def lex (b : Backend) : Nat → Str → Option (List Tk)
  | 0, _ => none
  | _ + 1, [] => some []
  | n + 1, c :: s =>
    if isSpace c then lex b n s
    else if isDigit c then
      (lex b n (lexNum b (c :: s)).2).map (Tk.num (lexNum b (c :: s)).1 :: ·)
    else if isLetter c then
      (lex b n ((c :: s).dropWhile isIdent)).map (Tk.id ((c :: s).takeWhile isIdent) :: ·)
    else if c = '*' ∧ s.head? = some '*' then (lex b n s.tail).map (Tk.pow :: ·)
    else if c = '<' ∧ s.head? = some '=' then (lex b n s.tail).map (Tk.le :: ·)
    else if c ∈ ['+', '-', '*', '/', '(', ')', '[', ']', '=', ':', ','] then
      (lex b n s).map (Tk.sym c :: ·)
    else none

/-! ### Expressions -/

/-- Functions by name: lines 853–886 for numba, intrinsic functions for Fortran. -/
def fnTable : Backend → List (String × Fn)
  | .python => [("numpy.exp", .exp), ("numpy.log10", .log10), ("numpy.log", .log), ("numpy.abs", .abs),
      ("numpy.sqrt", .sqrt), ("numpy.cos", .cos), ("numpy.sin", .sin), ("numpy.arccos", .arccos),
      ("numpy.arctan", .arctan)]
  | .numba => [("numba_exp", .exp), ("numba_log10", .log10), ("numba_log", .log), ("numba_abs", .abs),
      ("numba_sqrt", .sqrt), ("numba_cos", .cos), ("numba_sin", .sin), ("numba_arccos", .arccos),
      ("numba_arctan", .arctan), ("int", .trunc)]
  | .fortran => [("exp", .exp), ("log10", .log10), ("log", .log), ("abs", .abs), ("sqrt", .sqrt),
      ("cos", .cos), ("sin", .sin), ("acos", .arccos), ("atan", .arctan), ("floor", .floor)]

def fnOf (b : Backend) (s : Str) : Option Fn :=
  ((fnTable b).find? (fun p => p.1.toList = s)).map Prod.snd

/-- Array brackets: square in Python, round in Fortran. -/
def openOf (b : Backend) : Char := if b = .fortran then '(' else '['
def closeOf (b : Backend) : Char := if b = .fortran then ')' else ']'

/-- A literal subscript. -/
def subscript (q : ℚ) : Option Nat := if q.den = 1 ∧ 0 ≤ q.num then some q.num.toNat else none

mutual

/-- Sums. -/
def parseSum (b : Backend) : Nat → List Tk → Option (Ex × List Tk)
  | 0, _ => none
  | n + 1, ts =>
    match b, ts with
    | .fortran, .sym '-' :: ts => do
      let (a, ts) ← parseProd b n ts
      sumTail b n (.neg a) ts
    | .fortran, .sym '+' :: ts => do
      let (a, ts) ← parseProd b n ts
      sumTail b n a ts
    | _, ts => do
      let (a, ts) ← parseProd b n ts
      sumTail b n a ts

def sumTail (b : Backend) : Nat → Ex → List Tk → Option (Ex × List Tk)
  | 0, _, _ => none
  | n + 1, a, .sym '+' :: ts => do
    let (c, ts) ← parseProd b n ts
    sumTail b n (.add a c) ts
  | n + 1, a, .sym '-' :: ts => do
    let (c, ts) ← parseProd b n ts
    sumTail b n (.sub a c) ts
  | _ + 1, a, ts => some (a, ts)

/-- Products. In Fortran the first factor has no sign of its own. -/
def parseProd (b : Backend) : Nat → List Tk → Option (Ex × List Tk)
  | 0, _ => none
  | n + 1, ts => do
    let (a, ts) ← if b = .fortran then parsePow b n ts else parseUnary b n ts
    prodTail b n a ts

def prodTail (b : Backend) : Nat → Ex → List Tk → Option (Ex × List Tk)
  | 0, _, _ => none
  | n + 1, a, .sym '*' :: ts => do
    let (c, ts) ← parseUnary b n ts
    prodTail b n (.mul a c) ts
  | n + 1, a, .sym '/' :: ts => do
    let (c, ts) ← parseUnary b n ts
    prodTail b n (.div a c) ts
  | _ + 1, a, ts => some (a, ts)

/-- Factors with signs. Fortran has none by the standard, but GNU Fortran accepts them after `*`, `/` and
`**`, with the same meaning as Python. -/
def parseUnary (b : Backend) : Nat → List Tk → Option (Ex × List Tk)
  | 0, _ => none
  | n + 1, ts =>
    match ts with
    | .sym '-' :: ts => do
      let (a, ts) ← parseUnary b n ts
      return (.neg a, ts)
    | .sym '+' :: ts => parseUnary b n ts
    | ts => parsePow b n ts

/-- Powers, associating to the right. -/
def parsePow (b : Backend) : Nat → List Tk → Option (Ex × List Tk)
  | 0, _ => none
  | n + 1, ts => do
    let (a, ts) ← parseAtom b n ts
    match ts with
    | .pow :: ts => do
      let (c, ts) ← parseUnary b n ts
      return (.pow a c, ts)
    | ts => return (a, ts)

/-- Numbers, names, array elements, calls, brackets. -/
def parseAtom (b : Backend) : Nat → List Tk → Option (Ex × List Tk)
  | 0, _ => none
  | n + 1, ts =>
    match ts with
    | .num q :: ts => some (.num q, ts)
    | .sym '(' :: ts => do
      let (a, ts) ← parseSum b n ts
      match ts with
      | .sym ')' :: ts => return (a, ts)
      | _ => none
    | .id s :: ts =>
      match fnOf b s, ts with
      | some f, .sym '(' :: ts => do
        let (a, ts) ← parseSum b n ts
        match ts with
        | .sym ')' :: ts => return (.call f a, ts)
        | _ => none
      | some _, _ => none
      | none, .sym o :: .num q :: .sym c :: ts' =>
        if o = openOf b ∧ c = closeOf b then (subscript q).map (fun k => (.var ⟨s, some k⟩, ts'))
        else some (.var ⟨s, none⟩, .sym o :: .num q :: .sym c :: ts')
      | none, ts => some (.var ⟨s, none⟩, ts)
    | _ => none

end

/-- A whole token list as an expression. -/
def parseExpr (b : Backend) (ts : List Tk) : Option Ex :=
  match parseSum b (8 * ts.length + 8) ts with
  | some (e, []) => some e
  | _ => none

/-- The target of an assignment: a name or an array element, then `=`. -/
def parseAssign (b : Backend) (ts : List Tk) : Option (Var × Ex) :=
  match ts with
  | .id s :: .sym '=' :: ts => (parseExpr b ts).map (fun e => (⟨s, none⟩, e))
  | .id s :: .sym o :: .num q :: .sym c :: .sym '=' :: ts =>
    if o = openOf b ∧ c = closeOf b then do
      let k ← subscript q
      let e ← parseExpr b ts
      return (⟨s, some k⟩, e)
    else none
  | _ => none

/-! ### Programs -/

inductive Stmt where
  | asg (v : Var) (e : Ex)
  | ifLe (a b : Ex) (t e : List (Var × Ex))
  deriving DecidableEq

/-- Lines of a text. -/
def linesOf (writes : List Str) : List Str := splitOn '\n' writes.flatten

/-- ASCII lower case. -/
def lower (s : Str) : Str :=
  s.map (fun c => if 'A'.toNat ≤ c.toNat ∧ c.toNat ≤ 'Z'.toNat then Char.ofNat (c.toNat + 32) else c)

/-- Remove a comment. -/
def uncomment (b : Backend) (s : Str) : Str :=
  s.takeWhile (fun c => !(c == (if b = .fortran then '!' else '#')))

/-- Number of leading blanks, and the text after them without trailing white space. -/
def indented (s : Str) : Nat × Str := ((s.takeWhile isSpace).length, stripBy isSpace s)

/-- Join Fortran lines that end in `&` with the next one. -/
def joinLines : List Str → List Str
  | [] => []
  | l :: ls =>
    match joinLines ls with
    | [] => [l]
    | m :: ms => if l.getLast? = some '&' then (l.dropLast ++ m) :: ms else l :: m :: ms

/-- Lines that say something: no comments, no blank lines; Fortran lower-cased and joined. -/
def codeLines (b : Backend) (writes : List Str) : List (Nat × Str) :=
  let ls := ((linesOf writes).map (fun l => indented (uncomment b l))).filter (fun l => l.2 ≠ [])
  if b = .fortran then (joinLines (ls.map (fun l => lower l.2))).map (fun l => (0, l)) else ls

def lexLine (b : Backend) (s : Str) : Option (List Tk) := lex b (s.length + 1) s

/-- Parse assignments. -/
def parseAsgs (b : Backend) (ls : List (Nat × Str)) : Option (List (Var × Ex)) :=
  ls.mapM (fun l => (lexLine b l.2).bind (parseAssign b))

/-- Split at the first `<=`. -/
def splitLe : List Tk → Option (List Tk × List Tk)
  | [] => none
  | .le :: ts => some ([], ts)
  | t :: ts => (splitLe ts).map (fun p => (t :: p.1, p.2))

/-- The condition of `if a <= b:` or `if ( a <= b ) then`. -/
def parseIf (b : Backend) (s : Str) : Option (Ex × Ex) := do
  let ts ← lexLine b s
  let ts ← match b, ts with
    | .fortran, .id w :: .sym '(' :: ts =>
      if w = "if".toList ∧ ts.drop (ts.length - 2) = [.sym ')', .id "then".toList] then
        some (ts.take (ts.length - 2)) else none
    | .fortran, _ => none
    | _, .id w :: ts =>
      if w = "if".toList ∧ ts.getLast? = some (.sym ':') then some ts.dropLast else none
    | _, _ => none
  let (x, y) ← splitLe ts
  let x ← parseExpr b x
  let y ← parseExpr b y
  return (x, y)

/-- A declaration: `real(8)` with or without `parameter`. The result is the text of the assignment a
parameter declaration makes. -/
def declaration (s : Str) : Option (Option Str) :=
  if ("real(8)".toList).isPrefixOf s then
    match afterFirst "parameter :: ".toList s with
    | some t => some (some t)
    | none => some none
  else none

/-- Statements of the file. The allocation `J=[None]*62` of line 754 is treated as a declaration. Python branches are indented; Fortran branches end in `else`, `end if`. -/
def parseLines (b : Backend) : Nat → List (Nat × Str) → Option (List Stmt)
  | 0, _ => none
  | _ + 1, [] => some []
  | n + 1, l :: ls =>
    if "if ".toList.isPrefixOf l.2 then do
      let (x, y) ← parseIf b l.2
      let inBranch : Nat × Str → Bool := fun m =>
        if b = .fortran then !(m.2 == "else".toList || m.2 == "end if".toList) else decide (l.1 < m.1)
      let t ← parseAsgs b (ls.takeWhile inBranch)
      match ls.dropWhile inBranch with
      | m :: ls =>
        if m.2 = "else".toList ∨ m.2 = "else:".toList then do
          let e ← parseAsgs b (ls.takeWhile inBranch)
          let rest := ls.dropWhile inBranch
          let rest := if b = .fortran then rest.tail else rest
          let rest ← parseLines b n rest
          return .ifLe x y t e :: rest
        else none
      | [] => none
    else match (if b = .fortran then declaration l.2
        else if l.2 = "J=[None]*62".toList then some none else none) with
    | some none => parseLines b n ls
    | some (some s) => do
      let (v, e) ← (lexLine b s).bind (parseAssign b)
      let rest ← parseLines b n ls
      return .asg v e :: rest
    | none => do
      let (v, e) ← (lexLine b l.2).bind (parseAssign b)
      let rest ← parseLines b n ls
      return .asg v e :: rest

/-- The statements of a generated file. -/
def program (b : Backend) (writes : List Str) : Option (List Stmt) :=
  let ls := codeLines b writes
  parseLines b (ls.length + 1) ls

/-- The writes of each backend. -/
def writesOf : Backend → List Str
  | .python => pyWrites
  | .numba => numbaWrites
  | .fortran => fortranWrites

/-! ### Values -/

/-- Values of the variables. -/
abbrev Vals := Var → ℝ

noncomputable def Fn.val : Fn → ℝ → ℝ
  | .exp, x => Real.exp x
  | .log10, x => Real.log x / Real.log 10
  | .log, x => Real.log x
  | .abs, x => |x|
  | .sqrt, x => Real.sqrt x
  | .cos, x => Real.cos x
  | .sin, x => Real.sin x
  | .arccos, x => Real.arccos x
  | .arctan, x => Real.arctan x
  | .trunc, x => if 0 ≤ x then (⌊x⌋ : ℝ) else (⌈x⌉ : ℝ)
  | .floor, x => (⌊x⌋ : ℝ)

/-- Value of an expression. Where the language has no finite value (see `Ex.Ok`) this is some
number. -/
noncomputable def Ex.val (env : Vals) : Ex → ℝ
  | .num q => (q : ℝ)
  | .var v => env v
  | .neg a => -a.val env
  | .add a b => a.val env + b.val env
  | .sub a b => a.val env - b.val env
  | .mul a b => a.val env * b.val env
  | .div a b => a.val env / b.val env
  | .pow a b => a.val env ^ b.val env
  | .call f a => f.val (a.val env)
  | .ite a b t e => if a.val env ≤ b.val env then t.val env else e.val env

/-- Arguments for which a function has a finite value. -/
def Fn.Ok : Fn → ℝ → Prop
  | .log10, x => 0 < x
  | .log, x => 0 < x
  | .sqrt, x => 0 ≤ x
  | .arccos, x => -1 ≤ x ∧ x ≤ 1
  | _, _ => True

/-- The expression has a finite value: no division by zero, no fractional power of a negative number,
no negative power of zero, arguments of functions in their domains. -/
def Ex.Ok (env : Vals) : Ex → Prop
  | .num _ => True
  | .var _ => True
  | .neg a => a.Ok env
  | .add a b => a.Ok env ∧ b.Ok env
  | .sub a b => a.Ok env ∧ b.Ok env
  | .mul a b => a.Ok env ∧ b.Ok env
  | .div a b => a.Ok env ∧ b.Ok env ∧ b.val env ≠ 0
  | .pow a b => a.Ok env ∧ b.Ok env ∧
      (0 < a.val env ∨ (a.val env = 0 ∧ 0 ≤ b.val env) ∨ ∃ n : ℤ, b.val env = n ∧ a.val env ≠ 0)
  | .call f a => a.Ok env ∧ f.Ok (a.val env)
  | .ite a b t e => a.Ok env ∧ b.Ok env ∧ (a.val env ≤ b.val env → t.Ok env) ∧
      (¬ a.val env ≤ b.val env → e.Ok env)

/-- Assignments one after the other. -/
noncomputable def runAsgs (env : Vals) (l : List (Var × Ex)) : Vals :=
  l.foldl (fun env p => Function.update env p.1 (p.2.val env)) env

/-- One statement. -/
noncomputable def Stmt.run (env : Vals) : Stmt → Vals
  | .asg v e => Function.update env v (e.val env)
  | .ifLe a b t e => if a.val env ≤ b.val env then runAsgs env t else runAsgs env e

/-- A program. -/
noncomputable def run (env : Vals) (p : List Stmt) : Vals := p.foldl Stmt.run env

end Rl
end PyBox
