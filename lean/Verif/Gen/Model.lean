import Verif.Parse.Model
import Verif.Gen.Expr

/-!
# Model of the code generators for the gas phase

Mirrors `/repo/Parse_eqn_file.py` lines 2129–3200 (bodies of the generated routines).
The headers and footers of the generated files, and the text itself, are in `Gen/Text.lean`.
-/

namespace PyBox

/-- The four dictionaries the generators receive from the parser. -/
structure GenIn where
  /-- `species_dict2array` -/
  index : Dict Str Nat
  /-- `rate_dict_reactants` -/
  reactants : Dict Nat (Dict Nat Str)
  /-- `loss_dict` -/
  loss : Dict Str (Dict Nat ℚ)
  /-- `gain_dict` -/
  gain : Dict Str (Dict Nat ℚ)

/-- Hand the parser's tables to the generators (Gas_simulation.py lines 120–160). -/
def Tables.gen (t : Tables) : GenIn := ⟨t.index, t.reactants, t.loss, t.gain⟩

/-- `d[k]` on a plain `dict`. -/
def lookup {α β} [DecidableEq α] (d : Dict α β) (k : α) : Except PyErr β :=
  match d.get? k with
  | some v => .ok v
  | none => .error .key

/-- `loss_dict[reactant][equation_step]`: the outer dictionary is a `defaultdict`, the inner one
raises `KeyError`. -/
def lossCoef (g : GenIn) (name : Str) (e : Nat) : Except PyErr ℚ := lookup (g.loss.getD name []) e

/-- `rate_dict_reactants[equation_step].items()`, names only (the outer dictionary is a
`defaultdict`). -/
def reactantsOf (g : GenIn) (e : Nat) : List Str := (g.reactants.getD e []).values

/-! ### Reactant products -/

/-- `y[i]` or `y[i]**stoich` depending on `stoich == 1`. -/
def yFac (i : Nat) (s : ℚ) : Fac := if s = 1 then .y i else .ypow i s

/-- Lines 2216–2230 (Python) for one reactant: extend the line of equation `e`. -/
def reactantStepPy (g : GenIn) (e : Nat) (st : Option (List Tok)) (name : Str) :
    Except PyErr (Option (List Tok)) := do
  if name = hv then return st
  let stoich ← lossCoef g name e
  let i ← lookup g.index name
  match st with
  | none => return some [.fac (yFac i stoich)]
  | some ts => return some (ts ++ [.mul, .fac (yFac i stoich)])

/-- Lines 2334–2348 (Fortran): the same with subscripts shifted by one. -/
def reactantStepF (g : GenIn) (e : Nat) (st : Option (List Tok)) (name : Str) :
    Except PyErr (Option (List Tok)) := do
  if name = hv then return st
  let stoich ← lossCoef g name e
  let i ← lookup g.index name
  match st with
  | none => return some [.fac (yFac (i + 1) stoich)]
  | some ts => return some (ts ++ [.mul, .fac (yFac (i + 1) stoich)])

/-- A line of the generated routine, blank when no factor was written. -/
def toLine {κ : Type} (k : κ) : Option (List Tok) → Line κ
  | none => .blank
  | some ts => .asg k ts

/-- `write_reactants_indices`, lines 2214–2231: body of the generated Python `reactants`. -/
def writeReactantsPy (g : GenIn) (equations : Nat) : Except PyErr (List (Line Nat)) :=
  (List.range equations).mapM (fun e => do
    let l ← (reactantsOf g e).foldlM (reactantStepPy g e) none
    return toLine e l)

/-- `break_list=[int(x) for x in np.linspace(0,n,cores)][1:-1]`, lines 2279, 2571, 2723.
`np.linspace(0,n,cores)` has the points `n*k/(cores-1)`; truncation is division of naturals.
Simplified: exact arithmetic instead of floating point. -/
def breakList (n cores : Nat) : List Nat :=
  (((List.range cores).map (fun k => n * k / (cores - 1))).drop 1).dropLast

/-- Directives written before item number `k` when OpenMP is on: lines 2326–2333, 2580–2587,
2729–2735. -/
def ompBefore {κ : Type} (breaks : List Nat) (k : Nat) : List (Line κ) :=
  (if k = 0 then [.omp .parallel, .omp .single] else []) ++
  (if k ∈ breaks then [.omp .endSingle, .omp .single] else [])

/-- Put directives around numbered lines; `breaks = none` is `openMP=False`. Lines 2324–2352,
2578–2643, 2727–2937. -/
def withOmp {κ : Type} (breaks : Option (List Nat)) (groups : List (List (Line κ))) :
    List (Line κ) :=
  match breaks with
  | none => groups.flatten
  | some bs =>
    (groups.zipIdx.map (fun gi => ompBefore bs gi.2 ++ gi.1)).flatten ++
      [.omp .endSingle, .omp .endParallel]

/-- `write_reactants_indices_fortran`, lines 2324–2352: body of the generated Fortran
`reactants`; `cores = none` is `openMP=False`. -/
def writeReactantsF (g : GenIn) (equations : Nat) (cores : Option Nat) :
    Except PyErr (List (Line Nat)) := do
  let ls ← (List.range equations).mapM (fun e => do
    let l ← (reactantsOf g e).foldlM (reactantStepF g e) none
    return [toLine (e + 1) l])
  return withOmp (cores.map (breakList equations)) ls

/-- Sparse matrix saved by `write_reactants_indices`, lines 2166–2171. Entries are assigned. -/
def sparseReactants (g : GenIn) (equations : Nat) : Except PyErr (Dict (Nat × Nat) ℚ) :=
  (List.range equations).foldlM (fun m e =>
    (reactantsOf g e).foldlM (fun m name => do
      if name = hv then return m
      let stoich ← lossCoef g name e
      let i ← lookup g.index name
      return m.set (e, i) stoich) m) []

/-! ### Loss and gain -/

/-- `['AIR','H2O','O2','hv']`, lines 2392, 2450, 2589, 2739, 3000. -/
def excluded : List Str := ["AIR".toList, "H2O".toList, "O2".toList, hv]

/-- `*stoich` unless `stoich == 1`. -/
def timesStoich (s : ℚ) : List Tok := if s = 1 then [] else [.mul, .fac (.num s)]

/-- Loss terms of one species in Python, lines 2454–2472. -/
def lossToksPy : Bool → Dict Nat ℚ → List Tok
  | _, [] => []
  | true, (e, s) :: rest =>
    [.minus, .fac (.num 1), .mul, .fac (.r e)] ++ timesStoich s ++ lossToksPy false rest
  | false, (e, s) :: rest => [.minus, .fac (.r e)] ++ timesStoich s ++ lossToksPy false rest

/-- Gain terms of one species in Python, lines 2475–2493. -/
def gainToksPy : Dict Nat ℚ → List Tok
  | [] => []
  | (e, s) :: rest => [.plus, .fac (.r e)] ++ timesStoich s ++ gainToksPy rest

/-- Lines 2391–2407 read `loss_dict[species]` and `gain_dict[species]` for every species that is
not excluded; both are `defaultdict`s, so these keys exist afterwards. -/
def touchAll (g : GenIn) : GenIn :=
  g.index.foldl (fun g p =>
    if p.1 ∈ excluded then g
    else { g with loss := g.loss.touch p.1 [], gain := g.gain.touch p.1 [] }) g

/-- One line of the Python tendency routine, lines 2450–2496. -/
def tendencyLinePy (g : GenIn) (p : Str × Nat) : Line Nat :=
  if p.1 ∈ excluded then .blank
  else if p.1 ∈ g.loss.keys ∨ p.1 ∈ g.gain.keys then
    .asg p.2 (lossToksPy true (g.loss.getD p.1 []) ++ gainToksPy (g.gain.getD p.1 []))
  else .blank

/-- `write_loss_gain_matrix`, lines 2448–2496: body of the generated Python `dydt`. -/
def writeLossGainPy (g : GenIn) : List (Line Nat) :=
  (touchAll g).index.map (tendencyLinePy (touchAll g))

/-- Matrix saved by `write_loss_gain_matrix`, lines 2389–2407: entries are assigned, gains after
losses.  Simplified: a subscript out of range is not an error. -/
def sparseLossGain (g : GenIn) : Dict (Nat × Nat) ℚ :=
  g.index.foldl (fun m p =>
    if p.1 ∈ excluded then m
    else
      let m := (g.loss.getD p.1 []).foldl (fun m es =>
        m.set (p.2, es.1) (if es.2 = 1 then -1 else -1 * es.2)) m
      (g.gain.getD p.1 []).foldl (fun m es =>
        m.set (p.2, es.1) (if es.2 = 1 then 1 else 1 * es.2)) m) []

/-- Continuation before a term once more than `limit` terms are on the line. -/
def contBefore (limit flag : Nat) : List Tok × Nat := if limit < flag then ([.cont], 0) else ([], flag)

/-- Loss terms of one species in Fortran, lines 2593–2612; the written factor is `stoich+1`
(lines 2604, 2610). Returns also the line-length counter `flag`. -/
def lossToksF : Bool → Nat → Dict Nat ℚ → List Tok × Nat
  | _, flag, [] => ([], flag)
  | first, flag, (e, s) :: rest =>
    let c := contBefore 4 flag
    let t := (if first then [Tok.minus, .fac (.num 1), .mul, .fac (.r (e + 1))]
              else [Tok.minus, .fac (.r (e + 1))])
    let stoichTxt := if s = 1 then [] else [Tok.mul, .fac (.num (s + 1))]
    let r := lossToksF false (c.2 + 1) rest
    (c.1 ++ t ++ stoichTxt ++ r.1, r.2)

/-- Gain terms of one species in Fortran, lines 2615–2635; the written factor is `stoich+1`. -/
def gainToksF : Nat → Dict Nat ℚ → List Tok
  | _, [] => []
  | flag, (e, s) :: rest =>
    let c := contBefore 4 flag
    let stoichTxt := if s = 1 then [] else [Tok.mul, .fac (.num (s + 1))]
    c.1 ++ [Tok.plus, .fac (.r (e + 1))] ++ stoichTxt ++ gainToksF (c.2 + 1) rest

/-- One line of the Fortran tendency routine, lines 2589–2638. -/
def tendencyLineF (g : GenIn) (p : Str × Nat) : Line Nat :=
  if p.1 ∈ excluded then .blank
  else if p.1 ∈ g.loss.keys ∨ p.1 ∈ g.gain.keys then
    let l := if p.1 ∈ g.loss.keys then lossToksF true 0 (g.loss.getD p.1 []) else ([], 0)
    let k := if p.1 ∈ g.gain.keys then gainToksF l.2 (g.gain.getD p.1 []) else []
    .asg (p.2 + 1) (l.1 ++ k)
  else .blank

/-- `write_loss_gain_fortran`, lines 2573–2643: body of the generated Fortran `loss_gain`. The
array is set to zero first (line 2576). -/
def writeLossGainF (g : GenIn) (numSpecies : Nat) (cores : Option Nat) : List (Line Nat) :=
  withOmp (cores.map (breakList numSpecies)) (g.index.map (fun p => [tendencyLineF g p]))

/-! ### Jacobian -/

/-- Iteration order of `list(set(l))`: an arbitrary function of the list; the theorems assume only
that the result is a permutation of the distinct elements. -/
abbrev SetOrder := List Str → List Str

/-- A `SetOrder` lists every element once. -/
def SetOrder.Valid (ord : SetOrder) : Prop :=
  ∀ l, (ord l).Nodup ∧ ∀ x, x ∈ ord l ↔ x ∈ l

/-- Lines 3061–3111 / 3137–3187 for one `reactant2`: extend the product written for `d/d(x)`;
`none` is `step == 1`. `off` is 0 for Python and 1 for Fortran. -/
def jacFactor (g : GenIn) (off : Nat) (sign : Tok) (x : Str) (e : Nat) (sf : ℚ)
    (st : Option (List Tok)) (r2 : Str) : Except PyErr (Option (List Tok)) := do
  if r2 = hv then return st
  if r2 = x then
    if sf = 1 then return st
    let i ← lookup g.index r2
    if sf = 2 then
      match st with
      | none => return some [sign, .fac (.num sf), .mul, .fac (.y (i + off))]
      | some ts => return some (ts ++ [.mul, .fac (.num sf), .mul, .fac (.y (i + off))])
    else if sf > 2 then
      match st with
      | none => return some [sign, .fac (.num sf), .mul, .fac (.ypow (i + off) (sf - 1))]
      | some ts => return some (ts ++ [.mul, .fac (.num sf), .mul, .fac (.ypow (i + off) (sf - 1))])
    else return st
  else
    let stoich ← lossCoef g r2 e
    let i ← lookup g.index r2
    match st with
    | none => return some [sign, .fac (.num 1), .mul, .fac (yFac (i + off) stoich)]
    | some ts => return some (ts ++ [.mul, .fac (yFac (i + off) stoich)])

/-- Contribution of equation `e` to the entry for `x`: lines 3057–3117 and 3130–3193 (Python),
2793–2853 and 2866–2929 (Fortran). -/
def jacTerm (g : GenIn) (ord : SetOrder) (off : Nat) (sign : Tok) (x : Str) (e : Nat) :
    Except PyErr (List Tok) := do
  let sf ← lossCoef g x e
  let st ← (ord (reactantsOf g e)).foldlM (jacFactor g off sign x e sf) none
  match st with
  | some ts => return ts ++ [.mul, .fac (.r (e + off))]
  | none => return [sign, .fac (.num 1), .mul, .fac (.r (e + off))]

/-- Contributions of a list of equations in Python: lines 3045–3118 and 3121–3194. -/
def jacTermsPy (g : GenIn) (ord : SetOrder) (sign : Tok) (x : Str) :
    List Nat → Except PyErr (List Tok)
  | [] => .ok []
  | e :: es => do
    if x ∈ ord (reactantsOf g e) then
      let t ← jacTerm g ord 0 sign x e
      let r ← jacTermsPy g ord sign x es
      return t ++ r
    else jacTermsPy g ord sign x es

/-- Contributions of a list of equations in Fortran: lines 2783–2854 and 2857–2930, with a
continuation once more than three terms are on the line. -/
def jacTermsF (g : GenIn) (ord : SetOrder) (sign : Tok) (x : Str) :
    Nat → List Nat → Except PyErr (List Tok × Nat)
  | flag, [] => .ok ([], flag)
  | flag, e :: es => do
    if x ∈ ord (reactantsOf g e) then
      let c := contBefore 3 flag
      let t ← jacTerm g ord 1 sign x e
      let r ← jacTermsF g ord sign x (c.2 + 1) es
      return (c.1 ++ t ++ r.1, r.2)
    else jacTermsF g ord sign x flag es

/-- Equations in which the species is lost, line 3012 (the key test guards a `defaultdict`). -/
def lossEqs (g : GenIn) (s : Str) : List Nat := (g.loss.getD s []).keys
/-- Equations in which the species is gained, line 3022. -/
def gainEqs (g : GenIn) (s : Str) : List Nat := (g.gain.getD s []).keys

/-- `final_list`, lines 3011–3034: the distinct reactants of all equations that change `s`. -/
def jacColumns (g : GenIn) (ord : SetOrder) (s : Str) : List Str :=
  ord (ord ((lossEqs g s).flatMap (reactantsOf g)) ++ ord ((gainEqs g s).flatMap (reactantsOf g)))

/-- Lines of the Python Jacobian for one species, lines 3000–3197. -/
def jacLinesPy (g : GenIn) (ord : SetOrder) (p : Str × Nat) :
    Except PyErr (List (Line (Nat × Nat))) :=
  if p.1 ∈ excluded then .ok []
  else (jacColumns g ord p.1).mapM (fun x => do
    let j ← lookup g.index x
    let l ← jacTermsPy g ord .minus x (lossEqs g p.1)
    let k ← jacTermsPy g ord .plus x (gainEqs g p.1)
    return Line.asg (p.2, j) (l ++ k))

/-- `write_gas_jacobian_numba`, lines 2996–3197. -/
def writeJacobianPy (g : GenIn) (ord : SetOrder) : Except PyErr (List (Line (Nat × Nat))) := do
  let ls ← g.index.mapM (jacLinesPy g ord)
  return ls.flatten

/-- Lines of the Fortran Jacobian for one species, lines 2739–2933. -/
def jacLinesF (g : GenIn) (ord : SetOrder) (p : Str × Nat) :
    Except PyErr (List (Line (Nat × Nat))) :=
  if p.1 ∈ excluded then .ok []
  else (jacColumns g ord p.1).mapM (fun x => do
    let j ← lookup g.index x
    let l ← jacTermsF g ord .minus x 0 (lossEqs g p.1)
    let k ← jacTermsF g ord .plus x l.2 (gainEqs g p.1)
    return Line.asg (p.2 + 1, j + 1) (l.1 ++ k.1))

/-- `write_gas_jacobian_fortran`, lines 2725–2937. -/
def writeJacobianF (g : GenIn) (ord : SetOrder) (numSpecies : Nat) (cores : Option Nat) :
    Except PyErr (List (Line (Nat × Nat))) := do
  let ls ← g.index.mapM (jacLinesF g ord)
  return withOmp (cores.map (breakList numSpecies)) ls

end PyBox
