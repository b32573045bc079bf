import Verif.Rate.FactsErrors
import Verif.Rate.Check

/-!
# Rounding errors of the height of the sun and of photolysis rates
-/

namespace PyBox
namespace Rl

def cosxVar : Var := ⟨chars% "cosx", none⟩
def secxVar : Var := ⟨chars% "secx", none⟩
def hourVar : Var := ⟨chars% "currentfrachour", none⟩
def limitVar : Var := ⟨chars% "cosx_threshold", none⟩

/-- `J(k) = l*cosx**(m)*exp(-(1.0*n)*secx)` -/
def rowEx (l m n : ℚ) : KEx :=
  .bin .mul (.bin .mul (.num l (.real .single)) (.bin .pow (.var cosxVar) (.num m (.real .single))))
    (.call .exp (.neg (.bin .mul (.bin .mul (.num 1 (.real .single)) (.num n (.real .single))) (.var secxVar))))

def rowStmt (r : Nat × ℚ × ℚ × ℚ) : KStmt := .asg (Backend.fortran.slot r.1) (rowEx r.2.1 r.2.2.1 r.2.2.2)

def secxEx : KEx := .bin .div (.num 1 (.real .single)) (.var cosxVar)

/-- The branch on whether the sun is up. -/
def upStmt : KStmt := .ifLe (.var cosxVar) (.var limitVar)
  [(cosxVar, .num 0 (.real .single)), (secxVar, .num 1e20 (.real .single))] [(secxVar, secxEx)]

/-- From the hour to the height of the sun. -/
def toSun : List KStmt := afterHour.take 5

/-- After the photolysis rates. -/
def steadyPart : List KStmt := afterHour.drop 42

/-- A variable for the number of whole days. -/
def wholeVar : Var := ⟨chars% "whole days", none⟩

/-- The hour, with the number of whole days given. -/
def hourEx : Ex := .mul (.sub (.var dayVar) (.var wholeVar)) (.num 24)

/-- The height of the sun as an expression in the time and the number of whole days. -/
def heightEx : Ex :=
  let pi : Ex := .mul (.num 4) (.call .arctan (.num 1))
  let theta : Ex := .div (.mul (.mul (.num 2) pi) (.sub (.num 150) (.num 1))) (.num 365)
  let t (q : ℚ) (g : Fn) (m : ℚ) : Ex :=
    .mul (.num q) (.call g (if m = 1 then theta else .mul (.num m) theta))
  let dec : Ex := .add (.add (.add (.add (.add (.add (.num 0.006918) (t (-0.399912) .cos 1))
    (t 0.070257 .sin 1)) (t (-0.006758) .cos 2)) (t 0.000907 .sin 2)) (t (-0.002697) .cos 3))
    (t 0.001480 .sin 3)
  let eqtime : Ex := .add (.add (.add (.add (.num 0.000075) (t 0.001868 .cos 1)) (t (-0.032077) .sin 1))
    (t (-0.014615) .cos 2)) (t (-0.040849) .sin 2)
  let day : Ex := .add (.sub (.num 150) (.num 1)) (.div (.var (nm "ttime")) (.num 86400))
  let hour : Ex := .mul (.sub day (.var wholeVar)) (.num 24)
  let lha : Ex := .add (.mul pi (.sub (.div hour (.num 12))
    (.add (.num 1) (.div (.num 0.13) (.num 180))))) eqtime
  let lat : Ex := .div (.mul (.num 51.51) pi) (.num 180)
  .add (.mul (.call .cos lha) (.mul (.call .cos lat) (.call .cos dec)))
    (.mul (.call .sin lat) (.call .sin dec))

/-- On entry, with a time of up to thirty years. -/
def startSun : ErrSt := [(⟨chars% "ttime", none⟩, ⟨none, none, some (0, 1000000000, 0)⟩)]

def dayErrors : List (Var × Err) := sunErrors.take 23 ++ [(dayVar, ⟨none, none, some (149, 12000, 2e-11)⟩)]

/-- What is known before the hour. -/
def dayState : ErrSt := dayErrors.reverse ++ startSun

def heightErrors : List (Var × Err) := [
  (⟨chars% "lha", none⟩, ⟨none, none, some (-4, 4, 5e-7)⟩),
  (⟨chars% "lat", none⟩, ⟨some 242e-9, some (-0.12, -0.097), some (0.8985633, 0.899708, 163e-9)⟩),
  (⟨chars% "sinld", none⟩, ⟨none, none, some (-1, 1, 348e-9)⟩),
  (⟨chars% "cosld", none⟩, ⟨none, none, some (-1, 1, 348e-9)⟩),
  (cosxVar, ⟨none, none, some (-2, 2, 13e-7)⟩)]

def hourState : ErrSt := (hourVar, ⟨none, none, some (-1, 25, 1e-9)⟩) :: dayState

/-- What is known when the height of the sun has been computed. -/
def heightState : ErrSt := heightErrors.reverse ++ hourState

def KStmt.isAsg (p : Var → Bool) : KStmt → Bool
  | .asg v _ => p v
  | .ifLe _ _ _ _ => false

def sunFacts : Bool :=
  decide ((afterHour.drop 5).take 1 = [upStmt]) &&
  decide ((afterHour.drop 6).take 36 = photolysisTable.map rowStmt) &&
  steadyPart.all (KStmt.isAsg fun v => decide (v.name ≠ Backend.fortran.name "J".toList)) &&
  decide (checkRun dayErrors beforeHour startSun = some dayState) &&
  decide (checkRun heightErrors toSun hourState = some heightState) &&
  decide ((symRun [] (beforeHour.map KStmt.erase)).get wholeVar = .var wholeVar) &&
  decide (norm ((symRun [] (beforeHour.map KStmt.erase ++ .asg hourVar hourEx :: toSun.map KStmt.erase)).get cosxVar) =
    norm heightEx)

theorem facts_sun : sunFacts = true := by decide +kernel

/-! ### Rates for a height between two bounds -/

def heightErr (a b : ℚ) : Err := tidy ⟨none, none, some (a, b, 13e-7)⟩

def bandState (a b : ℚ) : ErrSt :=
  [(secxVar, errOf [(cosxVar, heightErr a b)] secxEx), (cosxVar, heightErr a b)]

/-- Every rate has at most the errors `e`, of its ratio, and `x` times its scale. -/
def bandOk (a b e x : ℚ) : Bool :=
  photolysisTable.all fun r =>
    forceErr (errOf (bandState a b) (rowEx r.2.1 r.2.2.1 r.2.2.2)) fun i =>
      match i.ratio, i.range with
      | some d, some p => decide (d ≤ e ∧ p.2.2 ≤ x * r.2.1)
      | _, _ => false

/-- The bands of heights. -/
def sunBands : List (ℚ × ℚ) := [(0.005, 0.01), (0.01, 0.02), (0.02, 0.04), (0.04, 0.08), (0.08, 0.16), (0.16, 0.32),
  (0.32, 0.64), (0.64, 1.1)]

theorem facts_bands : sunBands.all (fun p => bandOk p.1 p.2 1 4e-5) = true := by decide +kernel

theorem facts_high : bandOk 0.1 1.1 1.2e-4 1 = true := by decide +kernel

end Rl
end PyBox
