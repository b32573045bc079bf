import Verif.Props.Peroxy
import Verif.Props.Jacobian

/-!
# The right-hand side and the Jacobian handed to the ODE solver

Model of the closures `dydt_func` and `jacobian` of `run_simulation`
(`/repo/ODE_solver.py` lines 69–137 and 142–175, `/repo/f2py/ODE_solver.py` lines 59–96 and
100–129).

The routine that evaluates the rate coefficients is generated from the rate texts of the mechanism.
Here it is an arbitrary function of the time of day, RO2, H2O and the temperature: nothing else is
passed to it that can change (the two work arrays are zeros, `/repo/ODE_solver.py` line 99).
-/

namespace PyBox

/-- `evaluate_rates`: time of day, RO2, H2O, temperature, reaction. -/
abbrev Rates := ℝ → ℝ → ℝ → ℝ → Nat → ℝ

/-- `RO2=numpy.sum(y[RO2_indices])`, `/repo/ODE_solver.py` line 93. `none` if the list is empty: it was
saved as an array of floating point numbers, which is no index. -/
noncomputable def ro2Total (indices : List Nat) (y : Nat → ℝ) : Option ℝ :=
  if indices = [] then none else some (indices.map y).sum

/-- `dydt_func(t,y)`, `/repo/ODE_solver.py` lines 82–109. -/
noncomputable def dydtFunc (t : Tables) (equations : Nat) (indices : List Nat) (rates : Rates)
    (start h2o temp time : ℝ) (y : Nat → ℝ) : Option (Nat → ℝ) :=
  (ro2Total indices y).bind (fun ro2 => gasRhs t equations (rates (start + time) ro2 h2o temp) y)

/-- `jacobian(t,y)`, `/repo/ODE_solver.py` lines 153–173, with the generated routine `P`. -/
noncomputable def jacFunc (P : List (Line (Nat × Nat))) (indices : List Nat) (rates : Rates)
    (start h2o temp time : ℝ) (y : Nat → ℝ) : Option (Nat × Nat → ℝ) :=
  (ro2Total indices y).bind (fun ro2 =>
    exec .python ⟨y, rates (start + time) ro2 h2o temp⟩ P (fun _ => 0))

/-- The gas phase of the Fortran versions (`/repo/f2py/ODE_solver.py` lines 72–96,
`/repo/Aerosol/f2py/ODE_solver.py` lines 71–98): the generated Fortran routines write into arrays
with contents `a` and `b` (f2py hands over zeros). -/
noncomputable def gasRhsF (t : Tables) (equations numSpecies : Nat) (cores : Option Nat)
    (a b k y : Nat → ℝ) : Option (Nat → ℝ) :=
  match writeReactantsF t.gen equations cores with
  | .error _ => none
  | .ok P =>
    (exec .fortran ⟨y, fun _ => 0⟩ P a).bind (fun f =>
      exec .fortran ⟨y, fun e => f e * k e⟩ (writeLossGainF t.gen numSpecies cores) b)

/-- `dydt_func` of `/repo/f2py/ODE_solver.py` lines 59–96. -/
noncomputable def dydtFuncF (t : Tables) (equations numSpecies : Nat) (cores : Option Nat)
    (indices : List Nat) (rates : Rates) (start h2o temp time : ℝ) (y : Nat → ℝ) :
    Option (Nat → ℝ) :=
  (ro2Total indices y).bind (fun ro2 => gasRhsF t equations numSpecies cores (fun _ => 0) (fun _ => 0)
    (rates (start + time) ro2 h2o temp) y)

end PyBox
