import Verif.Rate.KindCheck
import Verif.Rate.KindsFile

/-!
# The kinds of the fixed Fortran rate program
-/

namespace PyBox
namespace Rl

/-- No `floor` is taken. -/
def noFloor : KEx → Bool
  | .num _ _ => true
  | .var _ => true
  | .neg a => noFloor a
  | .bin _ a b => noFloor a && noFloor b
  | .call f a => decide (f ≠ .floor) && noFloor a

def KStmt.noFloor : KStmt → Bool
  | .asg _ e => Rl.noFloor e
  | .ifLe a b t e => Rl.noFloor a && Rl.noFloor b && t.all (fun p => Rl.noFloor p.2) && e.all (fun p => Rl.noFloor p.2)

/-- The day with its fraction. -/
def dayVar : Var := Backend.fortran.var "currentFracDay"

/-- `currentFracHour = (currentFracDay - floor(currentFracDay)) * 24.0` -/
def hourStmt : KStmt := .asg (Backend.fortran.var "currentFracHour")
  (.bin .mul (.bin .sub (.var dayVar) (.call .floor (.var dayVar))) (.num 24 (.real .single)))

def beforeHour : List KStmt := kRateProgram.takeWhile KStmt.noFloor
def afterHour : List KStmt := (kRateProgram.dropWhile KStmt.noFloor).tail

def kindFacts : Bool :=
  kRateProgram.all KStmt.kinds &&
  decide ((kRateProgram.dropWhile KStmt.noFloor).head? = some hourStmt) &&
  afterHour.all KStmt.noFloor &&
  decide ((symRun [] (beforeHour.map KStmt.erase)).get dayVar =
    .add (.sub (.num 150) (.num 1)) (.div (.var (Backend.fortran.var "ttime")) (.num 86400)))

theorem facts_kinds : kindFacts = true := by decide +kernel

end Rl
end PyBox
