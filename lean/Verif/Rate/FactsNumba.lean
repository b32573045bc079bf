import Verif.Rate.FactsPython

/-!
# Answers for the numba rate program

The import of the module before only keeps the two from being checked at the same time: each takes much
memory.
-/

namespace PyBox
namespace Rl

theorem facts_numba : (commonFacts .numba && solarCheck .numba && signCheck .numba) = true := by
  decide +kernel

end Rl
end PyBox
