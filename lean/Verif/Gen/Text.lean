import Verif.Gen.Model
import Verif.Gen.Sources
import Verif.Rate.Lang

/-!
# The text of the generated gas routines

The token programs of `Gen/Model.lean` as the characters the writers of `/repo/Parse_eqn_file.py` put into
`Reactants_conc_numba.py`, `Reactants_conc.f90`, `Loss_Gain_numba.py`, `Loss_Gain.f90`, `Jacobian_numba.py`
and `Jacobian.f90` (lines 2179–2356, 2414–2650, 2674–2940, 2964–3200), and a reader of such a file: the
lines, comments and continuations are those of `Rate/Lang.lean`, the first and last lines of the routine must
be the expected ones, every other line an assignment to an element of the array (or, in Fortran, to the
whole array) whose right-hand side uses elements of the arrays that the routine has.
-/

namespace PyBox

open Rl (Backend Ex Tk Vals codeLines lexLine parseExpr subscript openOf closeOf)

/-- The language rules that apply to the gas routines; the Python files are written for numba. -/
def Lang.backend : Lang → Backend
  | .python => .numba
  | .fortran => .fortran

/-! ### Writing -/

/-- Decimal digits, Python `'%s'` of a natural number. -/
def digits (n : Nat) : Str := Nat.toDigits 10 n

/-- An array element. -/
def element (lang : Lang) (name : Str) (place : Str) : Str :=
  name ++ openOf lang.backend :: (place ++ [closeOf lang.backend])

/-- Text of an operand; `num` is Python `'%s'` of a float. -/
def Fac.text (lang : Lang) (num : ℚ → Str) : Fac → Str
  | .y i => element lang ['y'] (digits i)
  | .ypow i s => element lang ['y'] (digits i) ++ "**".toList ++ num s
  | .r e => element lang ['r'] (digits e)
  | .num q => num q

/-- Text of a token; the continuation is that of lines 2597–2598, 2620–2621, 2787–2788 and 2861–2862. -/
def Tok.text (lang : Lang) (num : ℚ → Str) : Tok → Str
  | .fac f => f.text lang num
  | .mul => ['*']
  | .plus => ['+']
  | .minus => ['-']
  | .cont => " & \n    ".toList

/-- Text of a right-hand side. -/
def rhsText (lang : Lang) (num : ℚ → Str) (ts : List Tok) : Str := (ts.map (Tok.text lang num)).flatten

/-- Subscripts as written and read. -/
class Place (κ : Type) where
  text : κ → Str
  /-- The subscript at the start of a list of tokens, and the tokens after it. -/
  read : List Tk → Option (κ × List Tk)
  /-- `:` or `:,:` at the start of a list of tokens. -/
  whole : List Tk

instance : Place Nat where
  text := digits
  read
    | .num q :: ts => (subscript q).map (fun k => (k, ts))
    | _ => none
  whole := [.sym ':']

instance : Place (Nat × Nat) where
  text p := digits p.1 ++ ',' :: digits p.2
  read
    | .num q :: .sym ',' :: .num q' :: ts => do
      let k ← subscript q
      let k' ← subscript q'
      return ((k, k'), ts)
    | _ => none
  whole := [.sym ':', .sym ',', .sym ':']

/-- What a writer prints outside the loops over reactions or species. -/
structure Layout where
  lang : Lang
  /-- the array that is computed -/
  array : Str
  /-- what ends the line of a reaction or species -/
  eol : Str
  /-- the arrays of the `SHARED` clause -/
  shared : Str
  top : List Str
  head : Str → Str → List Str
  foot : List Str

/-- Directives: lines 2327–2333 and 2350–2351, 2581–2587 and 2641–2642, 2730–2735 and 2935–2936. -/
def Omp.text (shared : Str) : Omp → Str
  | .parallel => "!$OMP PARALLEL &\n!$OMP& SHARED(".toList ++ shared ++ ")  \n".toList
  | .single => "!$OMP SINGLE \n".toList
  | .endSingle => "!$OMP END SINGLE NOWAIT\n".toList
  | .endParallel => "!$OMP END PARALLEL \n".toList

/-- One line of the body. -/
def Line.text {κ : Type} [Place κ] (L : Layout) (num : ℚ → Str) : Line κ → Str
  | .blank => L.eol
  | .asg k ts => "    ".toList ++ element L.lang L.array (Place.text k) ++ '=' :: rhsText L.lang num ts ++ L.eol
  | .omp d => d.text L.shared

/-- The line with the time of writing, lines 2204, 2310, 2439, 2548, 2699 and 2989. -/
def createdAt (lang : Lang) (date : Str) : Str :=
  (match lang with
    | .python => "# File created at ".toList
    | .fortran => "! File created at ".toList) ++ date ++ " \n".toList

/-- A generated file. -/
def fileText {κ : Type} [Place κ] (L : Layout) (num : ℚ → Str) (date : Str) (species reactions : Nat)
    (p : List (Line κ)) : Str :=
  L.top.flatten ++ createdAt L.lang date ++ (L.head (digits species) (digits reactions)).flatten ++
    (p.map (Line.text L num)).flatten ++ L.foot.flatten

/-- `write_reactants_indices`, lines 2179–2233. -/
def reactantsPyLayout : Layout :=
  ⟨.python, "reactants_conc".toList, "\n".toList, [], Rl.reactantsPyTop, Rl.reactantsPyHead, Rl.reactantsPyFoot⟩

/-- `write_reactants_indices_fortran`, lines 2284–2354. -/
def reactantsFLayout : Layout :=
  ⟨.fortran, "reactants_conc".toList, "\n".toList, "y,reactants_conc".toList, Rl.reactantsFTop,
    Rl.reactantsFHead, Rl.reactantsFFoot⟩

/-- `write_loss_gain_matrix`, lines 2414–2499. -/
def lossGainPyLayout : Layout :=
  ⟨.python, "loss_gain_list".toList, "\n".toList, [], Rl.lossGainPyTop, Rl.lossGainPyHead, Rl.lossGainPyFoot⟩

/-- `write_loss_gain_fortran`, lines 2522–2645. -/
def lossGainFLayout : Layout :=
  ⟨.fortran, "loss_gain_array".toList, " \n".toList, "r,loss_gain_array".toList, Rl.lossGainFTop,
    Rl.lossGainFHead, Rl.lossGainFFoot⟩

/-- `write_gas_jacobian_numba`, lines 2964–3200. -/
def jacobianPyLayout : Layout :=
  ⟨.python, "dy_dy".toList, " \n".toList, [], Rl.jacobianPyTop, Rl.jacobianPyHead, Rl.jacobianPyFoot⟩

/-- `write_gas_jacobian_fortran`, lines 2674–2939. -/
def jacobianFLayout : Layout :=
  ⟨.fortran, "dy_dy".toList, " \n".toList, "r,y,dy_dy".toList, Rl.jacobianFTop, Rl.jacobianFHead,
    Rl.jacobianFFoot⟩

/-! ### Reading -/

/-- A statement of a gas routine. -/
inductive Cmd (κ : Type) where
  /-- assignment to the whole array -/
  | fill (e : Ex)
  | asg (k : κ) (e : Ex)
  deriving DecidableEq

/-- The expression uses only elements of the arrays named. -/
def Rl.Ex.uses (arrays : List Str) : Ex → Bool
  | .num _ => true
  | .var v => decide (v.name ∈ arrays) && v.idx.isSome
  | .neg a => a.uses arrays
  | .add a b => a.uses arrays && b.uses arrays
  | .sub a b => a.uses arrays && b.uses arrays
  | .mul a b => a.uses arrays && b.uses arrays
  | .div a b => a.uses arrays && b.uses arrays
  | .pow a b => a.uses arrays && b.uses arrays
  | .call _ a => a.uses arrays
  | .ite a b c d => a.uses arrays && b.uses arrays && c.uses arrays && d.uses arrays

/-- A routine to be read: its language, the array it computes, the arrays it reads, and the first and last
lines it must have (with their indentation; Fortran without case and indentation). -/
structure Frame where
  lang : Lang
  array : Str
  inputs : List Str
  before : Nat → Nat → List (Nat × Str)
  after : List (Nat × Str)

/-- The right-hand side of a statement. -/
def readRhs (F : Frame) (ts : List Tk) : Option Ex := do
  let e ← parseExpr F.lang.backend ts
  if e.uses F.inputs then some e else none

/-- After the name of the array and the opening bracket. -/
def readTarget {κ : Type} [Place κ] (F : Frame) (ts : List Tk) : Option (Cmd κ) :=
  match Place.read (κ := κ) ts with
  | some (k, .sym c :: .sym '=' :: rest) =>
    if c = closeOf F.lang.backend then (readRhs F rest).map (Cmd.asg k) else none
  | _ =>
    let start := Place.whole κ ++ [.sym (closeOf F.lang.backend), .sym '=']
    if F.lang = .fortran ∧ start <+: ts then (readRhs F (ts.drop start.length)).map Cmd.fill else none

/-- One statement; Python statements of the routine are indented by four. -/
def readCmd {κ : Type} [Place κ] (F : Frame) (l : Nat × Str) : Option (Cmd κ) :=
  if F.lang = .python ∧ l.1 ≠ 4 then none
  else match lexLine F.lang.backend l.2 with
  | some (.id s :: .sym o :: ts) =>
    if s = F.array ∧ o = openOf F.lang.backend then readTarget F ts else none
  | _ => none

/-- The statements of a file. -/
def readFile {κ : Type} [Place κ] (F : Frame) (species reactions : Nat) (text : Str) :
    Option (List (Cmd κ)) :=
  let ls := codeLines F.lang.backend [text]
  let b := F.before species reactions
  if b <+: ls ∧ F.after <:+ ls.drop b.length then
    ((ls.drop b.length).take ((ls.drop b.length).length - F.after.length)).mapM (readCmd F)
  else none

/-- Values of the array elements; Fortran counts from 1. -/
def Env.vals (lang : Lang) (env : Env) : Vals := fun v =>
  let e := match lang with
    | .python => env
    | .fortran => env.shift
  match v.idx with
  | some i => if v.name = ['y'] then e.y i else if v.name = ['r'] then e.r i else 0
  | none => 0

/-- Run the statements on the array. -/
noncomputable def runCmds {κ : Type} [DecidableEq κ] [Subscript κ] (lang : Lang) (env : Env) :
    List (Cmd κ) → (κ → ℝ) → (κ → ℝ)
  | [], a => a
  | .fill e :: p, _ => runCmds lang env p (fun _ => e.val (env.vals lang))
  | .asg k e :: p, a =>
    runCmds lang env p (Function.update a (Subscript.offset lang k) (e.val (env.vals lang)))

/-- Call the routine of a file on the array; `none` if the file is not a routine of the expected form. -/
noncomputable def runFile {κ : Type} [Place κ] [DecidableEq κ] [Subscript κ] (F : Frame)
    (species reactions : Nat) (text : Str) (env : Env) (a : κ → ℝ) : Option (κ → ℝ) :=
  (readFile F species reactions text).map (fun p => runCmds F.lang env p a)

/-- `real(8), intent(in), dimension(..) :: ..` -/
def declared (io : String) (dims : Str) (name : String) : Nat × Str :=
  (0, "real(8), intent(".toList ++ io.toList ++ "), dimension(".toList ++ dims ++ ") :: ".toList ++ name.toList)

/-- The start of the numba files. -/
def pyBefore (sig decl : String) : List (Nat × Str) :=
  [(0, "import numpy as np".toList), (0, "import numba as nb".toList), (0, sig.toList), (0, decl.toList)]

def reactantsPyFrame : Frame where
  lang := .python
  array := "reactants_conc".toList
  inputs := [['y']]
  before _ _ := pyBefore "@nb.jit('float64[:](float64[:],int32,float64[:])', nopython=True, cache=True)"
    "def reactants(y,equations,reactants_conc):"
  after := [(4, "return reactants_conc".toList)]

def reactantsFFrame : Frame where
  lang := .fortran
  array := "reactants_conc".toList
  inputs := [['y']]
  before n m := [(0, "subroutine reactants(y,reactants_conc)".toList), (0, "implicit none".toList),
    declared "in" (digits n) "y", declared "out" (digits m) "reactants_conc"]
  after := [(0, "end subroutine".toList)]

def lossGainPyFrame : Frame where
  lang := .python
  array := "loss_gain_list".toList
  inputs := [['r']]
  before _ _ := pyBefore "@nb.jit('float64[:](float64[:],float64[:])', nopython=True, cache=True)"
    "def dydt(loss_gain_list,r):"
  after := [(4, "return loss_gain_list".toList)]

def lossGainFFrame : Frame where
  lang := .fortran
  array := "loss_gain_array".toList
  inputs := [['r']]
  before n m := [(0, "subroutine loss_gain(r,loss_gain_array)".toList), (0, "implicit none".toList),
    declared "in" (digits m) "r", declared "out" (digits n) "loss_gain_array"]
  after := [(0, "end subroutine".toList)]

def jacobianPyFrame : Frame where
  lang := .python
  array := "dy_dy".toList
  inputs := [['r'], ['y']]
  before _ _ := pyBefore
    "@nb.jit('float64[:,:](float64[:],float64[:],float64[:,:])', nopython=True, cache=True)"
    "def jacobian(r,y,dy_dy):"
  after := [(4, "return dy_dy".toList)]

def jacobianFFrame : Frame where
  lang := .fortran
  array := "dy_dy".toList
  inputs := [['r'], ['y']]
  before n m := [(0, "subroutine jacobian(r,y,dy_dy)".toList), (0, "implicit none".toList),
    declared "in" (digits m) "r", declared "in" (digits n) "y",
    declared "out" (digits n ++ ',' :: digits n) "dy_dy"]
  after := [(0, "end subroutine".toList)]

end PyBox
