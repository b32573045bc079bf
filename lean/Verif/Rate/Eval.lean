import Verif.Rate.Check
import Verif.Rate.File

/-!
# The generated rate files as functions

`evaluate_rates` is the fixed program of `Rate/Check.lean` followed by one assignment for each reaction
(`/repo/Parse_eqn_file.py` lines 803–806, 1271–1274 and 1745–1768).  Python: the caller hands over arrays of
zeros for the rates and the photolysis slots (`/repo/ODE_solver.py` lines 96 and 97).
-/

namespace PyBox
namespace Rl

/-- The rate file up to the end of the assignments; `cores` are those of the Fortran writer. -/
def ratesFile (b : Backend) (cores : Option Nat) (d : Dict Nat Str) : List Str :=
  writesOf b ++
    match b, cores with
    | .fortran, none => d.map rateLineF
    | .fortran, some c => d.zipIdx.map (fun x => ompTextBefore (breakList d.length c) x.2 ++ rateLineF x.1)
    | _, _ => d.map rateLinePy

/-- The converter of a backend. -/
def convertOf : Backend → Str → Str
  | .python => convertPy
  | .numba => convertNumba
  | .fortran => convertFortran

/-- The place of a rate in the array of rates: Fortran counts from 1. -/
def Backend.rateVar (b : Backend) (e : Nat) : Var :=
  ⟨b.name "rate_values".toList, some (if b = .fortran then e + 1 else e)⟩

/-- Variables that depend on temperature and water only. -/
def steadyVar (b : Backend) (v : Var) : Bool :=
  decide (v ∈ coefficientNames.map b.var ++ [b.var "temp", b.var "TEMP", b.var "H2O"])

/-- Expressions that depend on temperature and water only. -/
def Ex.steady (b : Backend) (e : Ex) : Bool := e.vars.all (steadyVar b)

/-- Polynomials in the peroxy radicals and the photolysis rates. -/
def Ex.rateLike (b : Backend) : Ex → Bool
  | .num _ => true
  | .var v => steadyVar b v || decide (v = b.var "RO2") ||
      decide (v ∈ photolysisTable.map (fun r => b.slot r.1))
  | .neg a => a.rateLike b
  | .add x y => x.rateLike b && y.rateLike b
  | .sub x y => x.rateLike b && y.rateLike b
  | .mul x y => x.rateLike b && y.rateLike b
  | .div x y => x.rateLike b && y.steady b
  | e => e.steady b

/-- The expression a converted rate text stands for: what is read from the line that assigns it. -/
def readExpr (b : Backend) (text : Str) : Option Ex :=
  (lexLine b (if b = .fortran then lower text else text)).bind (parseExpr b)

end Rl
end PyBox
