import Verif.Parse.Model
import Mathlib.Data.Rat.Floor
import Mathlib.Algebra.Order.Floor.Ring

/-!
# Model of the batch loops of the ODE drivers

`/repo/ODE_solver.py` lines 199–280, `/repo/f2py/ODE_solver.py` lines 145–222,
`/repo/Aerosol/f2py/ODE_solver.py` lines 206–301,
`/repo/Aerosol/f2py/Fixed_yield/ODE_solver_fixedyield.py` lines 184–264 and
`/repo/Aerosol/f2py/ODE_solver_opsplit.py` lines 193–306.

Times are rational numbers (as floating point numbers are); `rnd` is the rounding applied to the result
of each arithmetic operation, `id` for exact arithmetic. `Y` is the type of state vectors and `solve y d`
is the last row of `exp_sim.simulate(d)` for the problem started from `y` at `t0 = 0.0`; it is
arbitrary. Concentrations are rational or real numbers. Not modelled: that the solver can raise, plots, files.
-/

namespace PyBox

/-- `int(q)`. -/
def truncQ (q : ℚ) : ℤ := if 0 ≤ q then ⌊q⌋ else ⌈q⌉

/-- The variables of the loop. `last` is `y_output[-1,:]`, which is read only after the first batch. -/
structure BatchState (Y : Type*) where
  total : ℚ
  step : Nat
  y0 : Y
  last : Y
  times : List ℚ
  rows : List Y

/-- `while total_time < simulation_time`, ODE_solver.py lines 239–279. The row assignment raises
`IndexError` when `time_step` is not below the number of rows. -/
def batchLoop {Y : Type*} (rnd : ℚ → ℚ) (solve : Y → ℚ → Y) (sim batch : ℚ) (s : BatchState Y) :
    Except PyErr (BatchState Y) :=
  if s.total < sim then
    let start := if s.total = 0 then s.y0 else s.last
    let out := solve start batch
    let total := rnd (s.total + batch)
    if _h : s.step < s.rows.length then
      batchLoop rnd solve sim batch
        { total := total, step := s.step + 1, y0 := start, last := out, times := s.times ++ [total],
          rows := s.rows.set s.step out }
    else .error .index
  else .ok s
termination_by s.rows.length - s.step
decreasing_by simp only [List.length_set]; omega

/-- `run_simulation` from the initial vector on: `t_array` and `y_matrix`. `int(simulation_time/batch_step)`
(line 229) can raise `ZeroDivisionError`, `numpy.zeros` (line 233) `ValueError`. -/
def runSimulation {Y : Type*} (rnd : ℚ → ℚ) (solve : Y → ℚ → Y) (zero y0 : Y) (sim batch : ℚ) :
    Except PyErr (List ℚ × List Y) :=
  if batch = 0 then .error .zeroDiv
  else
    let n := truncQ (rnd (sim / batch))
    if n < 0 then .error .value
    else
      match batchLoop rnd solve sim batch
        { total := 0, step := 0, y0 := y0, last := y0, times := [], rows := List.replicate n.toNat zero } with
      | .error e => .error e
      | .ok s => .ok (s.times, s.rows)

/-- The variables of the operator-split loop. -/
structure SplitState (Y : Type*) where
  total : ℚ
  step : Nat
  y0 : Y
  last : Y
  gasStep : Bool
  batch : ℚ
  times : List ℚ
  rows : List Y

/-- One pass of `ODE_solver_opsplit.py` lines 256–281: which problem is set up, from which state, and
the length of the batch. -/
def splitSetup {Y : Type*} (solveGas solvePart : Y → ℚ → Y) (gasTime partTime : ℚ) (s : SplitState Y) :
    (Y → ℚ → Y) × Y × ℚ × Bool :=
  if s.total = 0 then (solveGas, s.y0, s.batch, true)
  else if s.gasStep then (solvePart, s.last, partTime, false)
  else (solveGas, s.last, gasTime, true)

/-- `ODE_solver_opsplit.py` lines 254–306. -/
def splitLoop {Y : Type*} (rnd : ℚ → ℚ) (solveGas solvePart : Y → ℚ → Y) (sim gasTime partTime : ℚ)
    (s : SplitState Y) : Except PyErr (SplitState Y) :=
  if s.total < sim then
    let p := splitSetup solveGas solvePart gasTime partTime s
    let out := p.1 p.2.1 p.2.2.1
    let total := rnd (s.total + p.2.2.1)
    if _h : s.step < s.rows.length then
      splitLoop rnd solveGas solvePart sim gasTime partTime
        { total := total, step := s.step + 1, y0 := p.2.1, last := out, gasStep := p.2.2.2,
          batch := p.2.2.1, times := s.times ++ [total], rows := s.rows.set s.step out }
    else .error .index
  else .ok s
termination_by s.rows.length - s.step
decreasing_by simp only [List.length_set]; omega

/-- `run_simulation` of the operator-split driver, with its constants (lines 231–232, 251–252) as
arguments. -/
def runSplit {Y : Type*} (rnd : ℚ → ℚ) (solveGas solvePart : Y → ℚ → Y) (zero y0 : Y)
    (sim batch gasTime partTime : ℚ) : Except PyErr (List ℚ × List Y) :=
  if batch = 0 then .error .zeroDiv
  else
    let n := truncQ (rnd (sim / batch))
    if n < 0 then .error .value
    else
      match splitLoop rnd solveGas solvePart sim gasTime partTime
        { total := 0, step := 0, y0 := y0, last := y0, gasStep := false, batch := batch, times := [],
          rows := List.replicate n.toNat zero } with
      | .error e => .error e
      | .ok s => .ok (s.times, s.rows)

section Initial

variable {K : Type}

/-- `y0[i]=v` on a list. -/
def pyAssign (l : List K) (i : Nat) (v : K) : Except PyErr (List K) :=
  if i < l.length then .ok (l.set i v) else .error .index

/-- `Cfactor`, ODE_solver.py line 200. -/
def cFactor [CommRing K] : K := 25500000000

/-- ODE_solver.py lines 203–210: the initial vector of the gas-phase drivers. -/
def initialGas [CommRing K] (numSpecies : Nat) (index : Dict Str Nat) (conc : Dict Str K) : Except PyErr (List K) :=
  conc.foldlM (fun y p => match index.get? p.1 with
    | none => .error .key
    | some i => pyAssign y i (p.2 * cFactor)) (List.replicate numSpecies 0)

/-- `l[a:b]=v` on a list, `a ≤ b`: the slice is replaced, whatever the length of `v`. -/
def pySlice (l : List K) (a b : Nat) (v : List K) : List K := l.take a ++ v ++ l.drop b

/-- Aerosol/f2py/ODE_solver.py lines 210–223: water is given in molecules per cc and is not converted.
The comparison `is 'H2O'` is modelled as equality (the names in the driver are literals, which CPython
shares). -/
def initialAerosol [CommRing K] (numSpecies numCond numBins : Nat) (index : Dict Str Nat) (conc : Dict Str K)
    (cond : List K) : Except PyErr (List K) := do
  let y ← conc.foldlM (fun y p => match index.get? p.1 with
    | none => .error .key
    | some i => pyAssign y i (if p.1 = "H2O".toList then p.2 else p.2 * cFactor))
    (List.replicate (numSpecies + numCond * numBins) 0)
  return pySlice y numSpecies (numSpecies + numBins * numCond) cond

end Initial

end PyBox
