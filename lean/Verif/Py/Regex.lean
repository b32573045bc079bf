import Verif.Py.Str

/-!
# A small backtracking regular-expression engine

Model of Python's `re` for the constructs that occur in the patterns of
`/repo/Parse_eqn_file.py` (lines 88, 128, 185, 242): character classes, concatenation, ordered
alternatives, greedy and lazy repetition of a character class.  `Re.run` lists all ways to match a
prefix, in the order in which a backtracking engine tries them; the engine takes the first.
-/

namespace PyBox

/-- Regular expressions (the fragment used in /repo). -/
inductive Re where
  /-- the empty pattern -/
  | eps
  /-- one character of a class -/
  | cls (p : Char → Bool)
  /-- concatenation -/
  | seq (a b : Re)
  /-- ordered alternative `a|b` -/
  | alt (a b : Re)
  /-- greedy `p*` -/
  | star (p : Char → Bool)
  /-- lazy `p*?` -/
  | lazy (p : Char → Bool)

namespace Re

/-- Ways to match `p*` greedily: (consumed, rest), longest first. -/
def runStar (p : Char → Bool) : Str → List (Str × Str)
  | [] => [([], [])]
  | a :: s =>
    if p a then (runStar p s).map (fun ur => (a :: ur.1, ur.2)) ++ [([], a :: s)]
    else [([], a :: s)]

/-- Ways to match `p*?`: (consumed, rest), shortest first. -/
def runLazy (p : Char → Bool) : Str → List (Str × Str)
  | [] => [([], [])]
  | a :: s =>
    if p a then ([], a :: s) :: (runLazy p s).map (fun ur => (a :: ur.1, ur.2))
    else [([], a :: s)]

/-- All ways to match a prefix of the text, in order of preference. -/
def run : Re → Str → List (Str × Str)
  | eps, s => [([], s)]
  | cls _, [] => []
  | cls p, a :: s => if p a then [([a], s)] else []
  | seq a b, s => (run a s).flatMap (fun ur => (run b ur.2).map (fun vt => (ur.1 ++ vt.1, vt.2)))
  | alt a b, s => run a s ++ run b s
  | star p, s => runStar p s
  | lazy p, s => runLazy p s

/-- One literal character. -/
def chr (c : Char) : Re := cls (· == c)
/-- `r?` (greedy). -/
def opt (r : Re) : Re := alt r eps
/-- `p+` (greedy). -/
def plus (p : Char → Bool) : Re := seq (cls p) (star p)
/-- `.`: any character but a line feed. -/
def dot (c : Char) : Bool := !(c == '\n')

/-- Match at the current position. -/
def matchAt (r : Re) (s : Str) : Option (Str × Str) := (run r s).head?

/-- `re.findall` (whole matches) with explicit fuel; `fuel = length + 1` is always enough for a
pattern that matches no empty text. -/
def findallFuel (r : Re) : Nat → Str → List Str
  | 0, _ => []
  | _ + 1, [] => []
  | n + 1, a :: s =>
    match matchAt r (a :: s) with
    | some (u, rest) => if u = [] then findallFuel r n s else u :: findallFuel r n rest
    | none => findallFuel r n s

/-- `re.findall(r, s)`: the leftmost non-overlapping matches.
Simplified: empty matches are not reported (none of the modelled patterns has any). -/
def findall (r : Re) (s : Str) : List Str := findallFuel r (s.length + 1) s

/-- Pattern `[-+]?\d*\.\d+|\d+|\d+` of Parse_eqn_file.py lines 185 and 242. -/
def number : Re :=
  alt (seq (opt (cls (fun c => c == '-' || c == '+')))
        (seq (star isDigit) (seq (chr '.') (plus isDigit))))
      (alt (plus isDigit) (plus isDigit))

/-- Pattern `\{(.*?)\}` of Parse_eqn_file.py line 88. -/
def label : Re := seq (chr '{') (seq (lazy dot) (chr '}'))

/-- Pattern `\}(.*?)\;` of Parse_eqn_file.py line 128. -/
def body : Re := seq (chr '}') (seq (lazy dot) (chr ';'))

/-- Group 1 of `label`/`body`: the match without its first and last character. -/
def group1 (m : Str) : Str := m.tail.dropLast

end Re
end PyBox
