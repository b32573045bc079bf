import Verif.Rate.Check

/-!
# Answers for the plain Python rate program
-/

namespace PyBox
namespace Rl

theorem facts_python : commonFacts .python = true := by decide +kernel

theorem facts_plain : plainCheck = true := by decide +kernel

end Rl
end PyBox
