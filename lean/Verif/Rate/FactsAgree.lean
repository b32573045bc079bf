import Verif.Rate.FactsFortran

/-!
# The three programs compared

The import of the module before only keeps the two from being checked at the same time: each takes much
memory.
-/

namespace PyBox
namespace Rl

theorem facts_agree :
    (coefficientsAgree .python .numba && coefficientsAgree .numba .fortran) = true := by
  decide +kernel

end Rl
end PyBox
