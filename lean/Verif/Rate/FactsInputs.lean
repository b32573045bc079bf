import Verif.Rate.FactsAgree

/-!
# What the fixed rate programs leave alone

The import of the module before only keeps the two from being checked at the same time: each takes much
memory.
-/

namespace PyBox
namespace Rl

/-- The arguments keep their values, `TEMP` is the temperature, the array of rates is not touched; the only
array assigned is that of the photolysis rates. -/
def inputsCheck (b : Backend) : Bool :=
  decide ((symRun [] (rateProgram b)).get (b.var "temp") = .var (b.var "temp")) &&
  decide ((symRun [] (rateProgram b)).get (b.var "TEMP") = .var (b.var "temp")) &&
  decide ((symRun [] (rateProgram b)).get (b.var "H2O") = .var (b.var "H2O")) &&
  decide ((symRun [] (rateProgram b)).get (b.var "RO2") = .var (b.var "RO2")) &&
  ((rateProgram b).flatMap Stmt.assigned).all (fun v => decide (v.name ≠ b.name "rate_values".toList ∧
    (v.idx ≠ none → v.name = b.name "J".toList)))

/-- Parsing stops inside the given lines: no branch runs on into what may follow. -/
def sealedLines (b : Backend) : Nat → List (Nat × Str) → Bool
  | 0, _ => false
  | _ + 1, [] => true
  | n + 1, l :: ls =>
    if "if ".toList.isPrefixOf l.2 then
      let inBranch : Nat × Str → Bool := fun m =>
        if b = .fortran then !(m.2 == "else".toList || m.2 == "end if".toList) else decide (l.1 < m.1)
      match ls.dropWhile inBranch with
      | _ :: ls => !(ls.dropWhile inBranch).isEmpty && sealedLines b n
          (if b = .fortran then (ls.dropWhile inBranch).tail else ls.dropWhile inBranch)
      | [] => false
    else sealedLines b n ls

/-- The text ends with a whole line; its last line does not continue. -/
def sealedCheck (b : Backend) : Bool :=
  sealedLines b ((codeLines b (writesOf b)).length + 1) (codeLines b (writesOf b)) &&
  decide ((writesOf b).flatten.getLast? = some '\n') &&
  decide (((((linesOf (writesOf b)).map (fun l => indented (uncomment b l))).filter
    (fun l => l.2 ≠ [])).map (fun l => lower l.2)).getLast?.bind List.getLast? ≠ some '&') &&
  decide (((linesOf (writesOf b)).map (fun l => indented (uncomment b l))).filter (fun l => l.2 ≠ []) ≠ [])

theorem facts_inputs : (inputsCheck .python && inputsCheck .numba && inputsCheck .fortran) = true := by
  decide +kernel

theorem facts_sealed : (sealedCheck .python && sealedCheck .numba && sealedCheck .fortran) = true := by
  decide +kernel

end Rl
end PyBox
