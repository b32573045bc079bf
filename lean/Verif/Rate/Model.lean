import Verif.Py.Str
import Verif.Py.Dict

/-!
# Model of `/repo/rate_coeff_conversion.py`

The three converters rewrite the text of each rate expression.
-/

namespace PyBox

/-- `s.replace(old,new)` for non-empty `old`: leftmost non-overlapping occurrences. The counter is
the number of characters still covered by the last match. -/
def replaceGo (old new : Str) : Nat → Str → Str
  | _, [] => []
  | k + 1, _ :: s => replaceGo old new k s
  | 0, a :: s =>
    if old.isPrefixOf (a :: s) then new ++ replaceGo old new (old.length - 1) s
    else a :: replaceGo old new 0 s

/-- `s.replace(old,new)`. -/
def replaceAll (old new s : Str) : Str := replaceGo old new 0 s

/-- `s.find(sub,start)`; `none` is `-1`. -/
def findFrom (sub s : Str) (start : Nat) : Option Nat := (findSub sub (s.drop start)).map (· + start)

/-- `l[i]=c`, where `none` is index `-1`, the last element. -/
def pySet (l : Str) (i : Option Nat) (c : Char) : Str :=
  match i with
  | some i => l.set i c
  | none => l.set (l.length - 1) c

/-- Lines 83–84, 170–171, 274–275: `for operation in math_list: temp_text=rate_full.replace(...)`.
Every pass starts again from `rate_full`. -/
def mathLoop (ops : List (Str × Str)) (rate : Str) : Str :=
  ops.foldl (fun _ op => replaceAll op.1 op.2 rate) rate

/-- Lines 85–86, 172–173, 276–277. -/
def mapLoop (ops : List (Str × Str)) (text : Str) : Str :=
  ops.foldl (fun t op => replaceAll op.1 op.2 t) text

/-- Lines 68–74. -/
def mathListPy : List (Str × Str) :=
  [("dabs".toList, "numpy.abs".toList), ("dsqrt".toList, "numpy.sqrt".toList),
   ("dlog".toList, "numpy.log".toList), ("LOG".toList, "numpy.log".toList),
   ("EXP".toList, "numpy.exp".toList)]

/-- Lines 75–77. -/
def mapListPy : List (Str × Str) :=
  [("D-".toList, "E-".toList), ("D+".toList, "E+".toList)]

/-- Lines 143–149. -/
def mathListNumba : List (Str × Str) :=
  [("dabs".toList, "numba_abs".toList), ("dsqrt".toList, "numba_sqrt".toList),
   ("dlog".toList, "numba_log".toList), ("LOG".toList, "numba_log".toList),
   ("EXP".toList, "numba_exp".toList)]

/-- Lines 150–161 and 255–266. -/
def mapListFull : List (Str × Str) :=
  [("D-".toList, "E-".toList), ("D+".toList, "E+".toList), ("D1".toList, "E+1".toList),
   ("D2".toList, "E+2".toList), ("D3".toList, "E+3".toList), ("D4".toList, "E+4".toList),
   ("D5".toList, "E+5".toList), ("D6".toList, "E+6".toList), ("D7".toList, "E+7".toList),
   ("D8".toList, "E+8".toList), ("D9".toList, "E+9".toList)]

/-- Lines 250–254. -/
def mathListFortran : List (Str × Str) :=
  [("dabs".toList, "ABS".toList), ("dsqrt".toList, "SQRT".toList), ("dlog".toList, "LOG".toList)]

/-- Line 79. -/
def afterTextPy : List Str :=
  ["numpy.abs".toList, "numpy.sqrt".toList, "numpy.log".toList, "numpy.exp".toList]

/-- Lines 97–107 for one function name: restore the brackets after its first occurrence. -/
def restoreStep (t sub : Str) : Str :=
  match findSub sub t with
  | none => t
  | some i => pySet (pySet t (findFrom ['['] t i) '(') (findFrom [']'] t i) ')'

/-- `convert_rate_mcm` for one expression, lines 83–113. -/
def convertPy (rate : Str) : Str :=
  let t := mapLoop mapListPy (mathLoop mathListPy rate)
  let t := replaceAll [')'] [']'] (replaceAll ['('] ['['] t)
  afterTextPy.foldl restoreStep t

/-- Lines 175–182: positions of `'J('`, in increasing order. -/
def photoPositions (t : Str) : List Nat :=
  (List.range t.length).filter (fun i => "J(".toList.isPrefixOf (t.drop i))

/-- Lines 184–191 for one position: `text` is searched, the list `l` is changed. -/
def photoStep (text l : Str) (num : Nat) : Str :=
  pySet (pySet l (findFrom ['('] text num) '[') (findFrom [')'] text num) ']'

/-- Lines 174–194. -/
def photoBrackets (t : Str) : Str := (photoPositions t).foldl (photoStep t) t

/-- `convert_rate_mcm_numba` for one expression, lines 170–216. -/
def convertNumba (rate : Str) : Str :=
  photoBrackets (mapLoop mapListFull (mathLoop mathListNumba rate))

/-- `convert_rate_mcm_fortran` for one expression, lines 274–332. -/
def convertFortran (rate : Str) : Str := mapLoop mapListFull (mathLoop mathListFortran rate)

/-- The converters overwrite every value of the dictionary they receive and return it. -/
def convertTable (f : Str → Str) (d : Dict Nat Str) : Dict Nat Str := d.map (fun p => (p.1, f p.2))

end PyBox
