import Verif.Py.Dict
import Verif.Py.Regex
import Mathlib.Algebra.Field.Rat

/-!
# Model of `extract_mechanism`

Mirrors `/repo/Parse_eqn_file.py` lines 46–310.
-/

namespace PyBox

/-- Exceptions raised by the modelled code. -/
inductive PyErr where
  | index | value | key | name | zeroDiv
  deriving DecidableEq, Repr

/-- Value of a string of decimal digits. -/
def digitsVal (s : Str) : Nat := s.foldl (fun n c => 10 * n + (c.toNat - '0'.toNat)) 0

/-- Python `int(s)` (Parse_eqn_file.py line 88): surrounding white space, an optional sign, digits
with single underscores between them. Simplified: ASCII digits only. -/
def pyInt (s : Str) : Except PyErr Int :=
  let t := stripBy isSpace s
  let (neg, ds) := match t with
    | '-' :: r => (true, r)
    | '+' :: r => (false, r)
    | r => (false, r)
  let parts := splitOn '_' ds
  if parts.all (fun w => !w.isEmpty && w.all isDigit) then
    .ok (if neg then -(digitsVal parts.flatten : Int) else digitsVal parts.flatten)
  else .error .value

/-- Python `float(s)` on a text matched by the number pattern (Parse_eqn_file.py lines 194, 205,
251, 262), as an exact rational.  Simplified: no rounding to binary. -/
def pyFloat (s : Str) : ℚ :=
  let (neg, ds) := match s with
    | '-' :: r => (true, r)
    | '+' :: r => (false, r)
    | r => (false, r)
  let (ip, fp) := split1 '.' ds
  let v : ℚ := (digitsVal ip : ℚ) +
    match fp with
    | none => 0
    | some f => (digitsVal f : ℚ) / (10 ^ f.length : ℚ)
  if neg then -v else v

/-- Separate the stoichiometric coefficient from the name: Parse_eqn_file.py lines 184–209
(reactants) and 241–266 (products).  The three `except` outcomes (no number; `index` failing)
leave the name unchanged with coefficient 1. -/
def parseTerm (t : Str) : ℚ × Str :=
  match Re.findall Re.number t with
  | [] => (1, t)
  | [st] =>
    if findSub st t = some 0 then (pyFloat st, (afterFirst st t).getD t) else (1, t)
  | st :: n2 :: _ =>
    if findSub st t = some 0 then (pyFloat st, (afterFirst st t).getD t ++ n2) else (1, t)

/-- One equation after the textual stage: coefficients and names of reactants and products in the
order written (a `hv` is still present; blank products are gone), and the rate text. -/
structure RawEqn where
  reactants : List (ℚ × Str)
  products : List (ℚ × Str)
  rate : Str
  deriving DecidableEq, Repr

/-- `reactant.split()[0]`, line 180: `IndexError` for a blank reactant. -/
def firstWord (s : Str) : Except PyErr Str :=
  match words s with
  | [] => .error .index
  | w :: _ => .ok w

/-- Textual stage for one equation body: Parse_eqn_file.py lines 139–153, 180–209, 236–266.
A missing `=` (line 144) or `:` (line 149) or a blank reactant (line 180) raises `IndexError`;
a blank product is skipped (lines 235–289).  Simplified: the Python code interleaves this stage
with the table updates of the same equation; since an exception discards all tables the order
is not observable. -/
def parseEqn (body : Str) : Except PyErr RawEqn :=
  let full := removeChar '\t' body
  let (eqnTxt, rateO) := split1 ':' full
  let (lhs, rhsO) := split1 '=' eqnTxt
  match rhsO, rateO with
  | some rhs, some rate => do
    let reactants := (splitOn '+' lhs).map (stripBy (· == ' '))
    let products := (splitOn '+' rhs).map (stripBy (· == ' '))
    let rate := removeSpace (stripBy isSpace rate)
    let rs ← reactants.mapM firstWord
    return { reactants := rs.map parseTerm
             products := (products.filterMap (fun p => (words p).head?)).map parseTerm
             rate := rate }
  | _, _ => .error .index

/-- The photon marker, lines 214 and 271. -/
def hv : Str := ['h', 'v']

/-- The dictionaries filled by the parser, lines 115–131. `species_hess_data` is never filled. -/
structure Tables where
  /-- `rate_dict` -/
  rate : Dict Nat Str := []
  /-- `rate_dict_reactants` -/
  reactants : Dict Nat (Dict Nat Str) := []
  /-- `stoich_dict` -/
  stoich : Dict Nat (Dict Nat ℚ) := []
  /-- `loss_dict` -/
  loss : Dict Str (Dict Nat ℚ) := []
  /-- `gain_dict` -/
  gain : Dict Str (Dict Nat ℚ) := []
  /-- `species_dict` -/
  species : Dict Nat Str := []
  /-- `species_dict2array` -/
  index : Dict Str Nat := []
  /-- `species_step` -/
  next : Nat := 0
  /-- `species_hess_loss_data` -/
  hessLoss : Dict Str (List Nat) := []
  /-- `species_hess_gain_data` -/
  hessGain : Dict Str (List Nat) := []
  deriving DecidableEq, Repr

/-- `d[k1][k2] = v` on a `defaultdict` of dictionaries. -/
def set2 {α β γ} [DecidableEq α] [DecidableEq β] (d : Dict α (Dict β γ)) (k1 : α) (k2 : β) (v : γ) :
    Dict α (Dict β γ) :=
  (d.touch k1 []).set k1 ((d.getD k1 []).set k2 v)

/-- Give a new name the next index: lines 218–221 and 273–276. -/
def registerSpecies (name : Str) (t : Tables) : Tables :=
  if name ∈ t.species.values then t
  else { t with species := t.species.set t.next name
                index := t.index.set name t.next
                next := t.next + 1 }

/-- Append the equation number to a hessian list: lines 223–225 and 278–280. -/
def hessAdd (d : Dict Str (List Nat)) (name : Str) (e : Nat) : Dict Str (List Nat) :=
  d.set name (d.getD name [] ++ [e])

/-- Lines 227–230: accumulate the loss coefficient. -/
def lossAdd (d : Dict Str (Dict Nat ℚ)) (name : Str) (e : Nat) (c : ℚ) : Dict Str (Dict Nat ℚ) :=
  let d := d.touch name []
  match (d.getD name []).get? e with
  | some old => set2 d name e (old + c)
  | none => set2 d name e c

/-- Lines 282–285: the gain coefficient.  The test at line 282 looks at `gain_dict[reactant]`,
where `reactant` is the last reactant of the equation, and not at the product; the `+=` of line
283 raises `KeyError` when the product has no entry yet, which the bare `except` of line 288
swallows (after `gain_dict[product]` was created empty). -/
def gainAdd (d : Dict Str (Dict Nat ℚ)) (last name : Str) (e : Nat) (c : ℚ) :
    Dict Str (Dict Nat ℚ) :=
  let d := d.touch last []
  match (d.getD last []).get? e with
  | some _ =>
    let d := d.touch name []
    match (d.getD name []).get? e with
    | some old => set2 d name e (old + c)
    | none => d
  | none => set2 d name e c

/-- One reactant: lines 214–232. The reactant position `step` advances also for `hv`. -/
def addReactant (e : Nat) (st : Tables × Nat) (term : ℚ × Str) : Tables × Nat :=
  let (t, step) := st
  let (c, name) := term
  if name = hv then (t, step + 1)
  else
    let t := { t with stoich := set2 t.stoich e step c
                      reactants := set2 t.reactants e step name }
    let t := registerSpecies name t
    let t := { t with hessLoss := hessAdd t.hessLoss name e
                      loss := lossAdd t.loss name e c }
    (t, step + 1)

/-- One product: lines 271–285. -/
def addProduct (e : Nat) (last : Str) (t : Tables) (term : ℚ × Str) : Tables :=
  let (c, name) := term
  if name = hv then t
  else
    let t := registerSpecies name t
    { t with hessGain := hessAdd t.hessGain name e
             gain := gainAdd t.gain last name e c }

/-- The variable `reactant` after the loop of line 179: name of the last reactant. -/
def lastReactant (q : RawEqn) : Str := (q.reactants.getLast?.map (·.2)).getD []

/-- All table updates of one equation: lines 153 and 176–289. -/
def addEqn (t : Tables) (e : Nat) (q : RawEqn) : Tables :=
  let t := { t with rate := t.rate.set e q.rate }
  let t := (q.reactants.foldl (addReactant e) (t, 0)).1
  q.products.foldl (addProduct e (lastReactant q)) t

/-- Table stage: the loop of line 137 over equations already split into terms. -/
def buildFrom (t : Tables) (e : Nat) : List RawEqn → Tables
  | [] => t
  | q :: qs => buildFrom (addEqn t e q) (e + 1) qs

/-- Tables for a whole list of equations. -/
def build (qs : List RawEqn) : Tables := buildFrom {} 0 qs

/-- Result of the parser: `output_dict`, lines 295–308. -/
structure Mechanism where
  tables : Tables
  /-- `max_equations` -/
  equations : Int
  deriving DecidableEq, Repr

/-- Text between braces, line 88. -/
def labels (data : Str) : List Str := (Re.findall Re.label data).map Re.group1

/-- Equation bodies, line 128. -/
def bodies (data : Str) : List Str := (Re.findall Re.body data).map Re.group1

/-- Lines 137–153 for all equations: `eqn_list[equation_step]` raises `IndexError` when the label
announces more equations than there are. -/
def parseAll (bs : List Str) : Nat → Except PyErr (List RawEqn)
  | 0 => .ok []
  | n + 1 =>
    match bs with
    | [] => .error .index
    | b :: rest => do
      let q ← parseEqn b
      let qs ← parseAll rest n
      return q :: qs

/-- `extract_mechanism` on the text of the file (after decoding): Parse_eqn_file.py lines 46–310.
`[-1]` of an empty list of labels raises `IndexError`; `range` of a negative count is empty.
Not modelled: opening the file twice (line 81 uses mode `'rU'`), printing. -/
def extractMechanism (text : Str) : Except PyErr Mechanism := do
  let data := removeChar '\n' text
  let last ← match (labels data).getLast? with
    | some l => .ok l
    | none => .error .index
  let n ← pyInt (stripBy (· == '.') last)
  let qs ← parseAll (bodies data) n.toNat
  return { tables := build qs, equations := n }

end PyBox
