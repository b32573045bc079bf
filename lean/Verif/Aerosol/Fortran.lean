import Verif.Aerosol.Source
import Verif.Gen.Text

/-!
# A reader and a meaning for the generated partitioning routine

The file `Partitioning.f90` is Fortran with array expressions and one parallel loop.  This file says how its
characters are read (lines, comments, continuations, tokens, declarations, statements, directives of OpenMP)
and what the routine does when it is called through f2py.  Nothing here refers to the formulas of the model
(`Aerosol/Partition.lean`).

* Names are compared without case and must be declared (`implicit none`).
* Literals with a point or an exponent are real numbers with their decimal value, other literals are integers.
* Array expressions work element by element and need operands of the same length; indices and sections must
  lie in the declared bounds.  Otherwise there is no result.
* Variables that have not been assigned hold an arbitrary value of their type.
* The statements of the passes of the parallel loop are executed in any order `tr` that the caller of the model
  chooses, one statement at a time; each thread has its own copy of the variables of the `PRIVATE` clauses.
-/

namespace PyBox
namespace Ft

/-! ### Tokens -/

inductive Tk where
  | int (n : ℕ)
  | real (q : ℚ)
  | id (s : Str)
  | sym (c : Char)
  | pow
  /-- the sentinel `!$OMP` at the start of a line -/
  | omp
  deriving DecidableEq

def isWord (c : Char) : Bool := c.isAlpha || isDigit c || c == '_' || c == '.'

/-- The exponent letter of a literal. -/
def isExpo (c : Char) : Bool := c == 'd' || c == 'D' || c == 'e' || c == 'E'

/-- The characters of a number or name. -/
def wordTk (w : Str) : Option Tk :=
  match w with
  | [] => none
  | c :: _ =>
    if isDigit c then
      if w.all isDigit then some (.int (digitsVal w))
      else match Rl.lexNum .fortran w with
        | (q, []) => some (.real q)
        | _ => none
    else if c.isAlpha && w.all (fun c => !(c == '.')) then some (.id (Rl.lower w))
    else none

/-- State of the reader of a line: the word that is being read (last character first) and the tokens read
(last one first); `none` after a character that belongs to no token. -/
structure Scan where
  word : Str
  out : List Tk
  comment : Bool
  deriving DecidableEq

/-- The word is complete. -/
def Scan.flush (s : Scan) : Option Scan :=
  if s.word = [] then some s
  else if s.word = ['*'] then some ⟨[], .sym '*' :: s.out, s.comment⟩
  else (wordTk s.word.reverse).map (fun t => ⟨[], t :: s.out, s.comment⟩)

/-- A sign that belongs to the exponent of a literal: `1.0D-3`. -/
def inExpo (w : Str) (c : Char) : Bool :=
  (c == '+' || c == '-') && (match w with | e :: _ => isExpo e | [] => false) &&
    (match w.getLast? with | some d => isDigit d | none => false)

def Scan.char (s : Scan) (c : Char) : Option Scan :=
  if s.comment then some s
  else if isWord c || inExpo s.word c then
    if s.word = ['*'] then some ⟨[c], .sym '*' :: s.out, false⟩ else some ⟨c :: s.word, s.out, false⟩
  else if c = '*' then
    if s.word = ['*'] then some ⟨[], .pow :: s.out, false⟩
    else s.flush.map (fun s => ⟨['*'], s.out, false⟩)
  else if c = '!' then s.flush.map (fun s => ⟨[], s.out, true⟩)
  else if isSpace c then s.flush
  else if c ∈ ['+', '-', '/', '(', ')', '=', ':', ',', '&'] then
    s.flush.map (fun s => ⟨[], .sym c :: s.out, false⟩)
  else none

def Scan.run : Str → Option Scan → Option Scan
  | _, none => none
  | [], some s => some s
  | c :: t, some s => Scan.run t (s.char c)

/-- The tokens of a line. -/
def lexLine (l : Str) : Option (List Tk) :=
  if Rl.lower (l.take 5) = "!$omp".toList then
    ((Scan.run (l.drop 5) (some ⟨[], [.omp], false⟩)).bind Scan.flush).map (fun s => s.out.reverse)
  else ((Scan.run l (some ⟨[], [], false⟩)).bind Scan.flush).map (fun s => s.out.reverse)

/-- Join lines that end in `&` with the next one. -/
def joinLines : List (List Tk) → List (List Tk)
  | [] => []
  | l :: ls =>
    match joinLines ls with
    | [] => [l]
    | m :: ms =>
      if l.getLast? = some (.sym '&') then
        (l.dropLast ++ (if [.omp, .sym '&'] <+: m then m.drop 2 else m)) :: ms
      else l :: m :: ms

/-- The statements of a file, as tokens. -/
def statements (text : Str) : Option (List (List Tk)) :=
  ((splitOn '\n' text).mapM lexLine).map (fun ls => joinLines (ls.filter (fun l => !l.isEmpty)))

/-! ### Expressions -/

/-- Variables are numbered in the order of their declarations. -/
inductive Ex where
  | int (n : ℕ)
  | real (q : ℚ)
  | var (x : ℕ)
  /-- `x(:)` -/
  | all (x : ℕ)
  | elem (x : ℕ) (i : Ex)
  /-- `x(a:b)` -/
  | sec (x : ℕ) (a b : Ex)
  | add (a b : Ex)
  | sub (a b : Ex)
  | mul (a b : Ex)
  | div (a b : Ex)
  | pow (a b : Ex)
  | exp (a : Ex)
  | sum (a : Ex)
  /-- `SUM(x, DIM=2)` -/
  | rowSums (x : ℕ)
  deriving DecidableEq

/-- The number of a variable. -/
def place (tab : List Str) (s : Str) : Option ℕ :=
  if s ∈ tab then some (tab.idxOf s) else none

mutual

/-- Sums. -/
def parseSum (tab : List Str) : ℕ → List Tk → Option (Ex × List Tk)
  | 0, _ => none
  | n + 1, ts => do
    let (a, ts) ← parseProd tab n ts
    sumTail tab n a ts

def sumTail (tab : List Str) : ℕ → Ex → List Tk → Option (Ex × List Tk)
  | 0, _, _ => none
  | n + 1, a, .sym '+' :: ts => do
    let (c, ts) ← parseProd tab n ts
    sumTail tab n (.add a c) ts
  | n + 1, a, .sym '-' :: ts => do
    let (c, ts) ← parseProd tab n ts
    sumTail tab n (.sub a c) ts
  | _ + 1, a, ts => some (a, ts)

/-- Products. -/
def parseProd (tab : List Str) : ℕ → List Tk → Option (Ex × List Tk)
  | 0, _ => none
  | n + 1, ts => do
    let (a, ts) ← parsePow tab n ts
    prodTail tab n a ts

def prodTail (tab : List Str) : ℕ → Ex → List Tk → Option (Ex × List Tk)
  | 0, _, _ => none
  | n + 1, a, .sym '*' :: ts => do
    let (c, ts) ← parsePow tab n ts
    prodTail tab n (.mul a c) ts
  | n + 1, a, .sym '/' :: ts => do
    let (c, ts) ← parsePow tab n ts
    prodTail tab n (.div a c) ts
  | _ + 1, a, ts => some (a, ts)

/-- Powers, associating to the right. -/
def parsePow (tab : List Str) : ℕ → List Tk → Option (Ex × List Tk)
  | 0, _ => none
  | n + 1, ts => do
    let (a, ts) ← parseAtom tab n ts
    match ts with
    | .pow :: ts => do
      let (c, ts) ← parsePow tab n ts
      return (.pow a c, ts)
    | ts => return (a, ts)

/-- Literals, variables, elements, sections, intrinsic functions, brackets. -/
def parseAtom (tab : List Str) : ℕ → List Tk → Option (Ex × List Tk)
  | 0, _ => none
  | n + 1, ts =>
    match ts with
    | .int k :: ts => some (.int k, ts)
    | .real q :: ts => some (.real q, ts)
    | .sym '(' :: ts => do
      let (a, ts) ← parseSum tab n ts
      match ts with
      | .sym ')' :: ts => return (a, ts)
      | _ => none
    | .id s :: ts =>
      match place tab s, ts with
      | some x, .sym '(' :: .sym ':' :: .sym ')' :: ts => some (.all x, ts)
      | some x, .sym '(' :: ts => do
        let (a, ts) ← parseSum tab n ts
        match ts with
        | .sym ')' :: ts => return (.elem x a, ts)
        | .sym ':' :: ts => do
          let (b, ts) ← parseSum tab n ts
          match ts with
          | .sym ')' :: ts => return (.sec x a b, ts)
          | _ => none
        | _ => none
      | some x, ts => some (.var x, ts)
      | none, .sym '(' :: ts => do
        let (a, ts) ← parseSum tab n ts
        match ts with
        | .sym ')' :: ts =>
          if s = "exp".toList then return (.exp a, ts)
          else if s = "sum".toList then return (.sum a, ts)
          else none
        | .sym ',' :: .id d :: .sym '=' :: .int 2 :: .sym ')' :: ts =>
          match a with
          | .var x => if s = "sum".toList ∧ d = "dim".toList then return (.rowSums x, ts) else none
          | _ => none
        | _ => none
      | none, _ => none
    | _ => none

end

def parseExpr (tab : List Str) (ts : List Tk) : Option Ex :=
  match parseSum tab (8 * ts.length + 8) ts with
  | some (e, []) => some e
  | _ => none

/-! ### Statements -/

/-- What is assigned to. -/
inductive Target where
  | var (x : ℕ)
  /-- `x(:)` -/
  | all (x : ℕ)
  /-- `x(:,:)` -/
  | all2 (x : ℕ)
  | elem (x : ℕ) (i : Ex)
  | elem2 (x : ℕ) (i j : Ex)
  | sec (x : ℕ) (a b : Ex)
  deriving DecidableEq

structure Stmt where
  target : Target
  rhs : Ex
  deriving DecidableEq

def Target.name : Target → ℕ
  | .var x => x
  | .all x => x
  | .all2 x => x
  | .elem x _ => x
  | .elem2 x _ _ => x
  | .sec x _ _ => x

/-- `target = expression` -/
def parseStmt (tab : List Str) (ts : List Tk) : Option Stmt :=
  match ts with
  | .id s :: ts => do
    let x ← place tab s
    match ts with
    | .sym '=' :: ts => (parseExpr tab ts).map (fun e => ⟨.var x, e⟩)
    | .sym '(' :: .sym ':' :: .sym ')' :: .sym '=' :: ts => (parseExpr tab ts).map (fun e => ⟨.all x, e⟩)
    | .sym '(' :: .sym ':' :: .sym ',' :: .sym ':' :: .sym ')' :: .sym '=' :: ts =>
      (parseExpr tab ts).map (fun e => ⟨.all2 x, e⟩)
    | .sym '(' :: ts => do
      let (a, ts) ← parseSum tab (8 * ts.length + 8) ts
      match ts with
      | .sym ')' :: .sym '=' :: ts => (parseExpr tab ts).map (fun e => ⟨.elem x a, e⟩)
      | .sym ',' :: ts => do
        let (b, ts) ← parseSum tab (8 * ts.length + 8) ts
        match ts with
        | .sym ')' :: .sym '=' :: ts => (parseExpr tab ts).map (fun e => ⟨.elem2 x a b, e⟩)
        | _ => none
      | .sym ':' :: ts => do
        let (b, ts) ← parseSum tab (8 * ts.length + 8) ts
        match ts with
        | .sym ')' :: .sym '=' :: ts => (parseExpr tab ts).map (fun e => ⟨.sec x a b, e⟩)
        | _ => none
      | _ => none
    | _ => none
  | _ => none

/-! ### Declarations -/

inductive Kind where
  | real
  | int
  deriving DecidableEq

inductive Role where
  | input
  | output
  | plain
  /-- `PARAMETER`, with its value -/
  | const (t : Tk)
  deriving DecidableEq

structure Decl where
  name : Str
  kind : Kind
  role : Role
  dims : List ℕ
  deriving DecidableEq

/-- `a, b, c` -/
def nameList : List Tk → Option (List Str)
  | [.id s] => some [s]
  | .id s :: .sym ',' :: ts => (nameList ts).map (s :: ·)
  | _ => none

/-- After the attributes. -/
def declTail (k : Kind) (r : Role) (dims : List ℕ) (ts : List Tk) : Option (List Decl) :=
  (nameList ts).map (List.map (fun s => ⟨s, k, r, dims⟩))

/-- Attributes and names of a declaration: `intent`, `dimension` with literal bounds, `parameter`. -/
def declRest (k : Kind) (ts : List Tk) : Option (List Decl) :=
  match ts with
  | .sym ',' :: .id p :: .sym ':' :: .sym ':' :: [.id s, .sym '=', t] =>
    if p = "parameter".toList then some [⟨s, k, .const t, []⟩] else none
  | .sym ',' :: .id p :: .sym '(' :: .int n :: .sym ')' :: .sym ':' :: .sym ':' :: ts =>
    if p = "dimension".toList then declTail k .plain [n] ts else none
  | .sym ',' :: .id p :: .sym '(' :: .int n :: .sym ',' :: .int m :: .sym ')' :: .sym ':' :: .sym ':' :: ts =>
    if p = "dimension".toList then declTail k .plain [n, m] ts else none
  | .sym ',' :: .id i :: .sym '(' :: .id io :: .sym ')' :: ts =>
    if i = "intent".toList then
      match (if io = "in".toList then some Role.input else if io = "out".toList then some .output else none), ts with
      | some r, .sym ':' :: .sym ':' :: ts => declTail k r [] ts
      | some r, .sym ',' :: .id p :: .sym '(' :: .int n :: .sym ')' :: .sym ':' :: .sym ':' :: ts =>
        if p = "dimension".toList then declTail k r [n] ts else none
      | _, _ => none
    else none
  | ts => declTail k .plain [] ts

/-- `REAL(8) ...` or `INTEGER(8) ...` -/
def parseDecl (ts : List Tk) : Option (List Decl) :=
  match ts with
  | .id s :: .sym '(' :: .int 8 :: .sym ')' :: ts =>
    if s = "real".toList then declRest .real ts
    else if s = "integer".toList then declRest .int ts
    else none
  | _ => none

/-! ### Routines -/

/-- `DO counter=first,last` with the statements up to `ENDDO`, and the variables of the `PRIVATE` clauses. -/
structure Loop where
  counter : ℕ
  first : Ex
  last : Ex
  body : List Stmt
  priv : List ℕ
  deriving DecidableEq

structure Routine where
  args : List Str
  decls : List Decl
  pre : List Stmt
  loop : Loop
  post : List Stmt
  deriving DecidableEq

/-- `PRIVATE(..)` and `SHARED(..)` clauses, with or without commas between them: the private names. -/
def clauses : ℕ → List Tk → Option (List Str)
  | 0, _ => none
  | _ + 1, [] => some []
  | n + 1, .sym ',' :: ts => clauses n ts
  | n + 1, .id c :: .sym '(' :: ts =>
    let names := ts.takeWhile (fun t => t ≠ .sym ')')
    let rest := (ts.dropWhile (fun t => t ≠ .sym ')')).tail
    do
      let ns ← nameList names
      let more ← clauses n rest
      if c = "private".toList then return ns ++ more
      else if c = "shared".toList then return more
      else none
  | _ + 1, _ => none

/-- `!$OMP PARALLEL DO` with its clauses. -/
def parseDirective (tab : List Str) (ts : List Tk) : Option (List ℕ) :=
  match ts with
  | .omp :: .id p :: .id d :: ts =>
    if p = "parallel".toList ∧ d = "do".toList then
      (clauses (ts.length + 1) ts).bind (fun ns => ns.mapM (place tab))
    else none
  | _ => none

/-- `DO counter=first,last` -/
def parseDo (tab : List Str) (ts : List Tk) : Option (ℕ × Ex × Ex) :=
  match ts with
  | .id d :: .id s :: .sym '=' :: ts =>
    if d = "do".toList then do
      let x ← place tab s
      let (a, ts) ← parseSum tab (8 * ts.length + 8) ts
      match ts with
      | .sym ',' :: ts => (parseExpr tab ts).map (fun b => (x, a, b))
      | _ => none
    else none
  | _ => none

def enddo : List Tk := [.id "enddo".toList]

/-- A parallel loop and what follows it. -/
def parseLoop (tab : List Str) (ls : List (List Tk)) : Option (Loop × List (List Tk)) :=
  match ls with
  | dir :: head :: ls => do
    let priv ← parseDirective tab dir
    let (x, a, b) ← parseDo tab head
    let body ← (ls.takeWhile (fun l => l ≠ enddo)).mapM (parseStmt tab)
    match ls.dropWhile (fun l => l ≠ enddo) with
    | _ :: fin :: ls =>
      if fin = [.omp, .id "end".toList, .id "parallel".toList, .id "do".toList] then
        return (⟨x, a, b, body, priv⟩, ls)
      else none
    | _ => none
  | _ => none

/-- `subroutine name(args)` -/
def parseHeader (name : Str) (ts : List Tk) : Option (List Str) :=
  match ts with
  | .id s :: .id n :: .sym '(' :: ts =>
    if s = "subroutine".toList ∧ n = name ∧ ts.getLast? = some (.sym ')') then nameList ts.dropLast else none
  | _ => none

def isDirective (l : List Tk) : Bool := l.head? == some .omp

/-- After the declarations. -/
def parseBody (args : List Str) (decls : List Decl) (ls : List (List Tk)) : Option Routine := do
  let tab := decls.map Decl.name
  let pre ← (ls.takeWhile (fun l => !isDirective l)).mapM (parseStmt tab)
  let (loop, ls) ← parseLoop tab (ls.dropWhile (fun l => !isDirective l))
  if ls.getLast? = some [.id "end".toList, .id "subroutine".toList] then do
    let post ← ls.dropLast.mapM (parseStmt tab)
    return ⟨args, decls, pre, loop, post⟩
  else none

/-- A file with one subroutine. -/
def readRoutine (name : Str) (text : Str) : Option Routine := do
  let ls ← statements text
  match ls with
  | head :: impl :: ls => do
    let args ← parseHeader name head
    if impl = [.id "implicit".toList, .id "none".toList] then do
      let decls ← (ls.takeWhile (fun l => (parseDecl l).isSome)).mapM parseDecl
      parseBody args decls.flatten (ls.dropWhile (fun l => (parseDecl l).isSome))
    else none
  | _ => none

/-! ### Values -/

inductive V where
  | int (z : ℤ)
  | real (x : ℝ)
  | arr (l : List ℝ)
  /-- an array of integers; only passed on -/
  | ints (l : List ℤ)
  /-- numbers of rows and columns, elements counted from 1 -/
  | mat (n m : ℕ) (f : ℕ → ℕ → ℝ)

/-- Values of the variables. -/
abbrev Store := ℕ → V

/-- A scalar as a real number. -/
def V.num : V → Option ℝ
  | .int z => some z
  | .real x => some x
  | _ => none

open Classical in
/-- An operation on real numbers, element by element; `ok` says when it has a finite value. -/
noncomputable def lift2 (ok : ℝ → ℝ → Prop) (f : ℝ → ℝ → ℝ) (u v : V) : Option V :=
  match u, v with
  | .arr l, .arr m =>
    if l.length = m.length ∧ ∀ p ∈ l.zip m, ok p.1 p.2 then some (.arr (List.zipWith f l m)) else none
  | .arr l, v => v.num.bind (fun y => if ∀ x ∈ l, ok x y then some (.arr (l.map (fun x => f x y))) else none)
  | u, .arr m => u.num.bind (fun x => if ∀ y ∈ m, ok x y then some (.arr (m.map (fun y => f x y))) else none)
  | u, v => u.num.bind (fun x => v.num.bind (fun y => if ok x y then some (.real (f x y)) else none))

/-- An operation that integers have too. -/
noncomputable def arith (g : ℤ → ℤ → ℤ) (f : ℝ → ℝ → ℝ) (u v : V) : Option V :=
  match u, v with
  | .int a, .int b => some (.int (g a b))
  | u, v => lift2 (fun _ _ => True) f u v

/-- Division and powers of two integers are not needed and have no meaning here. -/
noncomputable def noInts (ok : ℝ → ℝ → Prop) (f : ℝ → ℝ → ℝ) (u v : V) : Option V :=
  match u, v with
  | .int _, .int _ => none
  | u, v => lift2 ok f u v

/-- An index inside an array of `n` elements. -/
def inside (n : ℕ) (i : ℤ) : Prop := 1 ≤ i ∧ i ≤ n

instance (n : ℕ) (i : ℤ) : Decidable (inside n i) := by unfold inside; infer_instance

/-- The section `a:b` of an array; empty sections need no bounds. -/
def section? {α : Type} (l : List α) (a b : ℤ) : Option (List α) :=
  if b < a then some []
  else if inside l.length a ∧ inside l.length b then some ((l.take b.toNat).drop (a.toNat - 1)) else none

/-- Value of an expression.  With `strict`, division by zero and powers of negative numbers have no value;
without, they have the value of Lean's real numbers. -/
noncomputable def Ex.val (strict : Prop) (σ : Store) : Ex → Option V
  | .int n => some (.int n)
  | .real q => some (.real q)
  | .var x => some (σ x)
  | .all x => match σ x with
    | .arr l => some (.arr l)
    | _ => none
  | .elem x i => (i.val strict σ).bind (fun k => match σ x, k with
    | .arr l, .int k => if inside l.length k then some (.real (l.getD (k.toNat - 1) 0)) else none
    | _, _ => none)
  | .sec x a b => (a.val strict σ).bind (fun p => (b.val strict σ).bind (fun q => match σ x, p, q with
    | .arr l, .int p, .int q => (section? l p q).map V.arr
    | _, _, _ => none))
  | .add a b => (a.val strict σ).bind (fun u => (b.val strict σ).bind (arith (· + ·) (· + ·) u))
  | .sub a b => (a.val strict σ).bind (fun u => (b.val strict σ).bind (arith (· - ·) (· - ·) u))
  | .mul a b => (a.val strict σ).bind (fun u => (b.val strict σ).bind (arith (· * ·) (· * ·) u))
  | .div a b => (a.val strict σ).bind (fun u => (b.val strict σ).bind
      (noInts (fun _ y => strict → y ≠ 0) (· / ·) u))
  | .pow a b => (a.val strict σ).bind (fun u => (b.val strict σ).bind
      (noInts (fun x y => strict → 0 < x ∨ (x = 0 ∧ 0 < y)) (fun x y => Real.rpow x y) u))
  | .exp a => (a.val strict σ).bind (fun u => match u with
    | .real x => some (.real (Real.exp x))
    | .arr l => some (.arr (l.map Real.exp))
    | _ => none)
  | .sum a => (a.val strict σ).bind (fun u => match u with
    | .arr l => some (.real l.sum)
    | _ => none)
  | .rowSums x => match σ x with
    | .mat n m f => some (.arr ((List.range n).map (fun i => ((List.range m).map (fun j => f (i + 1) (j + 1))).sum)))
    | _ => none

/-- What an assignment stores in its variable: scalars are converted to real numbers where the variable is
real, a scalar fills a section, an array must have the length of the section. -/
noncomputable def Stmt.step (strict : Prop) (s : Stmt) (σ : Store) : Option V :=
  (s.rhs.val strict σ).bind (fun v => match s.target with
    | .var x => match σ x, v with
      | .int _, .int z => some (.int z)
      | .real _, v => v.num.map V.real
      | .arr l, .arr r => if r.length = l.length then some (.arr r) else none
      | _, _ => none
    | .all x => match σ x, v with
      | .arr l, .arr r => if r.length = l.length then some (.arr r) else none
      | .arr l, v => v.num.map (fun y => .arr (l.map (fun _ => y)))
      | _, _ => none
    | .all2 x => match σ x with
      | .mat n m _ => v.num.map (fun y => .mat n m (fun _ _ => y))
      | _ => none
    | .elem x i => (i.val strict σ).bind (fun k => match σ x, k with
      | .arr l, .int k => v.num.bind (fun y =>
          if inside l.length k then some (.arr (l.set (k.toNat - 1) y)) else none)
      | _, _ => none)
    | .elem2 x i j => (i.val strict σ).bind (fun k => (j.val strict σ).bind (fun k' => match σ x, k, k' with
      | .mat n m f, .int k, .int k' => v.num.bind (fun y =>
          if inside n k ∧ inside m k' then
            some (.mat n m (Function.update f k.toNat (Function.update (f k.toNat) k'.toNat y))) else none)
      | _, _, _ => none))
    | .sec x a b => (a.val strict σ).bind (fun p => (b.val strict σ).bind (fun q => match σ x, p, q, v with
      | .arr l, .int p, .int q, .arr r =>
          (section? l p q).bind (fun old =>
            if old.length = r.length then
              (if q < p then some (.arr l) else some (.arr (l.take (p.toNat - 1) ++ r ++ l.drop q.toNat)))
            else none)
      | _, _, _, _ => none)))

/-- Run statements one after the other. -/
noncomputable def runStmts (strict : Prop) : List Stmt → Store → Option Store
  | [], σ => some σ
  | s :: p, σ => (s.step strict σ).bind (fun v => runStmts strict p (Function.update σ s.target.name v))

/-! ### The parallel loop -/

/-- One event of the loop: in the pass with counter `pass`, setting the counter (`at_ = 0`) or the statement
number `at_` (counted from 1). -/
structure Event where
  pass : ℕ
  at_ : ℕ
  deriving DecidableEq

/-- The variables shared by all threads and the copies each thread has of its private variables. -/
structure Conf where
  shared : Store
  own : ℕ → Store

/-- The variables a thread sees. -/
def Conf.view (c : Conf) (priv : List ℕ) (t : ℕ) : Store := fun x => if x ∈ priv then c.own t x else c.shared x

/-- A thread assigns to a variable. -/
def Conf.put (c : Conf) (priv : List ℕ) (t : ℕ) (x : ℕ) (v : V) : Conf :=
  if x ∈ priv then { c with own := Function.update c.own t (Function.update (c.own t) x v) }
  else { c with shared := Function.update c.shared x v }

/-- One event; `thr` says which thread executes a pass. -/
noncomputable def Loop.event (strict : Prop) (L : Loop) (thr : ℕ → ℕ) (e : Event) (c : Conf) : Option Conf :=
  if e.at_ = 0 then some (c.put L.priv (thr e.pass) L.counter (.int e.pass))
  else (L.body[e.at_ - 1]?).bind (fun s =>
    (s.step strict (c.view L.priv (thr e.pass))).map (fun v => c.put L.priv (thr e.pass) s.target.name v))

/-- A sequence of events. -/
noncomputable def Loop.run (strict : Prop) (L : Loop) (thr : ℕ → ℕ) : List Event → Conf → Option Conf
  | [], c => some c
  | e :: tr, c => (L.event strict thr e c).bind (L.run strict thr tr)

/-- The events of one pass, of all passes in order. -/
def passEvents (n b : ℕ) : List Event := (List.range (n + 1)).map (fun k => ⟨b, k⟩)
def allEvents (n first passes : ℕ) : List Event := (List.range passes).flatMap (fun k => passEvents n (first + k))

/-- The order is possible: every thread executes its passes one after the other. -/
def Interleaved (n first passes : ℕ) (thr : ℕ → ℕ) (tr : List Event) : Prop :=
  ∀ t, tr.filter (fun e => decide (thr e.pass = t)) =
    (allEvents n first passes).filter (fun e => decide (thr e.pass = t))

/-! ### Calls -/

/-- Arbitrary contents of memory. -/
structure Junk where
  int : ℕ → ℤ
  real : ℕ → ℝ
  arr : ℕ → ℕ → ℝ
  mat : ℕ → ℕ → ℕ → ℝ

/-- A variable of the declared type with arbitrary contents; parameters have their value. -/
noncomputable def Decl.fresh (d : Decl) (g : Junk) (x : ℕ) : V :=
  match d.role, d.kind, d.dims with
  | .const (.int n), .int, _ => .int n
  | .const (.int n), .real, _ => .real n
  | .const (.real q), .real, _ => .real q
  | _, .real, [] => .real (g.real x)
  | _, .real, [n] => .arr ((List.range n).map (g.arr x))
  | _, .real, n :: m :: _ => .mat n m (g.mat x)
  | _, .int, [] => .int (g.int x)
  | _, .int, n :: _ => .ints ((List.range n).map (fun _ => g.int x))

/-- The argument can be passed: same type and size. -/
def Decl.accepts (d : Decl) (v : V) : Prop :=
  match d.kind, d.dims, v with
  | .real, [], .real _ => True
  | .int, [], .int _ => True
  | .real, [n], .arr l => l.length = n
  | .int, [n], .ints l => l.length = n
  | _, _, _ => False

/-- Memory before the routine is called. -/
noncomputable def Routine.blank (R : Routine) (g : Junk) : Store := fun x =>
  match R.decls[x]? with
  | some d => d.fresh g x
  | none => .int 0

open Classical in
/-- f2py: the actual arguments belong, in this order, to the dummy arguments that are not `intent(out)`. -/
noncomputable def bindArgs (R : Routine) : List Str → List V → Store → Option Store
  | [], [], σ => some σ
  | [], _ :: _, _ => none
  | s :: ss, vs, σ =>
    (place (R.decls.map Decl.name) s).bind (fun x => (R.decls[x]?).bind (fun d =>
      if d.role = .output then bindArgs R ss vs σ
      else match vs with
        | v :: vs => if d.role = .input ∧ d.accepts v then bindArgs R ss vs (Function.update σ x v) else none
        | [] => none))

/-- f2py: the results are the `intent(out)` arguments in their order. -/
noncomputable def results (R : Routine) (σ : Store) : List V :=
  R.args.filterMap (fun s => (place (R.decls.map Decl.name) s).bind (fun x => (R.decls[x]?).bind (fun d =>
    if d.role = .output then some (σ x) else none)))

open Classical in
/-- Call a routine.  `g` is what memory contains before the call, `gt` what the private variables of each thread
contain before the loop; `thr` assigns passes to threads and `tr` is the order in which the statements of the
loop are executed, which must be possible. -/
noncomputable def Routine.call (strict : Prop) (R : Routine) (g : Junk) (gt : ℕ → Junk) (thr : ℕ → ℕ)
    (tr : List Event) (args : List V) : Option (List V) :=
  (bindArgs R R.args args (R.blank g)).bind (fun σ =>
    (runStmts strict R.pre σ).bind (fun σ =>
      (R.loop.first.val strict σ).bind (fun a => (R.loop.last.val strict σ).bind (fun b => match a, b with
        | .int a, .int b =>
          if 0 ≤ a ∧ Interleaved R.loop.body.length a.toNat (b + 1 - a).toNat thr tr then
            (R.loop.run strict thr tr ⟨σ, fun t => R.blank (gt t)⟩).bind (fun c =>
              (runStmts strict R.post c.shared).map (results R))
          else none
        | _, _ => none))))

end Ft
end PyBox
