import Verif.Rate.FactsPython
import Verif.Rate.FactsNumba
import Verif.Rate.FactsFortran
import Verif.Rate.FactsAgree

/-!
# Facts about all rate programs
-/

namespace PyBox
namespace Rl

theorem facts_common (b : Backend) : commonFacts b = true := by
  cases b with
  | python => exact facts_python
  | numba =>
    have := facts_numba
    rw [Bool.and_eq_true, Bool.and_eq_true] at this
    exact this.1.1
  | fortran =>
    have := facts_fortran
    rw [Bool.and_eq_true, Bool.and_eq_true, Bool.and_eq_true] at this
    exact this.1.1.1

end Rl
end PyBox
