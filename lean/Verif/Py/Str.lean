/-!
# Python string built-ins

Model of the `str` methods used by `/repo/Parse_eqn_file.py` and
`/repo/rate_coeff_conversion.py`, on lists of characters.
-/

namespace PyBox

/-- Python strings as lists of code points. -/
abbrev Str := List Char

/-- `str.isspace` for one character: the code points CPython's `str.split()` and `str.strip()`
treat as white space. -/
def isSpace (c : Char) : Bool :=
  let n := c.toNat
  (9 ≤ n && n ≤ 13) || (0x1c ≤ n && n ≤ 0x20) || n == 0x85 || n == 0xa0 || n == 0x1680 ||
  (0x2000 ≤ n && n ≤ 0x200a) || n == 0x2028 || n == 0x2029 || n == 0x202f || n == 0x205f ||
  n == 0x3000

/-- Regex class `\d`.  Simplified: ASCII digits only (Python's `\d` also accepts other Unicode
decimal digits, which no mechanism file uses). -/
def isDigit (c : Char) : Bool := '0'.toNat ≤ c.toNat && c.toNat ≤ '9'.toNat

/-- `s.split(c)` for a one-character separator. Never empty. -/
def splitOn (c : Char) : Str → List Str
  | [] => [[]]
  | a :: s =>
    if a = c then [] :: splitOn c s
    else match splitOn c s with
      | [] => [[a]]
      | w :: ws => (a :: w) :: ws

/-- `s.split(c,1)`: the text before the first `c`, and the text after it if there is one. -/
def split1 (c : Char) : Str → Str × Option Str
  | [] => ([], none)
  | a :: s =>
    if a = c then ([], some s)
    else ((a :: (split1 c s).1), (split1 c s).2)

/-- `s.strip(chars)` for the set of characters satisfying `p`. -/
def stripBy (p : Char → Bool) (s : Str) : Str :=
  ((s.dropWhile p).reverse.dropWhile p).reverse

/-- `s.split()`: the maximal runs of non-white-space characters. -/
def words : Str → List Str
  | [] => []
  | a :: s =>
    if isSpace a then words s
    else match s with
      | [] => [[a]]
      | b :: _ =>
        if isSpace b then [a] :: words s
        else match words s with
          | [] => [[a]]
          | w :: ws => (a :: w) :: ws

/-- `s.find(sub)`/`s.index(sub)`: position of the first occurrence. -/
def findSub (sub : Str) : Str → Option Nat
  | [] => if sub = [] then some 0 else none
  | a :: s => if sub.isPrefixOf (a :: s) then some 0 else (findSub sub s).map (· + 1)

/-- `s.split(sep,1)[1]` for a separator known to occur: the text after its first occurrence. -/
def afterFirst (sep : Str) : Str → Option Str
  | [] => if sep = [] then some [] else none
  | a :: s => if sep.isPrefixOf (a :: s) then some ((a :: s).drop sep.length) else afterFirst sep s

/-- `"".join(s.split())`: all white space removed. -/
def removeSpace (s : Str) : Str := (words s).flatten

/-- `s.replace(c,'')` / `re.sub(c,'',s)` for a single character. -/
def removeChar (c : Char) (s : Str) : Str := s.filter (fun a => !(a == c))

end PyBox
