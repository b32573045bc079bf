import Verif.Rate.Model
import Verif.Gen.Model

/-!
# The rate assignments of the generated rate files

`/repo/Parse_eqn_file.py` lines 803–806, 1271–1274 and 1745–1768, as text.
-/

namespace PyBox

/-- `'    rate_values[%s] =%s \n' %(key,rate_dict[key])`, lines 805 and 1273. -/
def rateLinePy (p : Nat × Str) : Str :=
  "    rate_values[".toList ++ Nat.toDigits 10 p.1 ++ "] =".toList ++ p.2 ++ " \n".toList

/-- Lines 804–805 and 1272–1273, then the end of the function. -/
def writeRatesPy (d : Dict Nat Str) : Str :=
  (d.map rateLinePy).flatten ++ "\n    return rate_values \n".toList

/-- `'    rate_values(%s) =%s \n' %(key+1,rate_dict_fortran[key])`, line 1762. -/
def rateLineF (p : Nat × Str) : Str :=
  "    rate_values(".toList ++ Nat.toDigits 10 (p.1 + 1) ++ ") =".toList ++ p.2 ++ " \n".toList

/-- Lines 1755–1760: the directives before item `k`. -/
def ompTextBefore (breaks : List Nat) (k : Nat) : Str :=
  (if k = 0 then "!$OMP PARALLEL &\n!$OMP& SHARED(rate_values, J)  \n!$OMP SINGLE \n".toList else []) ++
  (if k ∈ breaks then "!$OMP END SINGLE NOWAIT \n!$OMP SINGLE \n".toList else [])

/-- Lines 1746–1768; `cores = none` is `openMP=False`. -/
def writeRatesF (d : Dict Nat Str) (cores : Option Nat) : Str :=
  (match cores with
    | none => (d.map rateLineF).flatten
    | some c =>
      (d.zipIdx.map (fun x => ompTextBefore (breakList d.length c) x.2 ++ rateLineF x.1)).flatten ++
        "!$OMP END SINGLE NOWAIT \n!$OMP END PARALLEL \n".toList) ++
  "\nend subroutine\n".toList

end PyBox
