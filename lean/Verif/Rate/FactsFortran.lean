import Verif.Rate.FactsNumba

/-!
# Answers for the Fortran rate program

The import of the module before only keeps the two from being checked at the same time: each takes much
memory.
-/

namespace PyBox
namespace Rl

theorem facts_fortran :
    (commonFacts .fortran && solarCheck .fortran && signCheck .fortran && declaredCheck) = true := by
  decide +kernel

end Rl
end PyBox
