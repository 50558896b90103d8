import Verif.Gen.EvalLinear
import Verif.Lemmas.EvalLinear

/-!
# The checks of the body of `eval_linear`, evaluated by the kernel
-/

namespace BP.EL

/-- The cells of the arguments but `q1` and `q2`, and `lam`: the cells from 5033 to 5084. -/
def inputs : ℕ := (2 ^ 52 - 1) <<< 5033

/-- Every variable is assigned once, and before it is read. -/
theorem body_defined : definedCheck body inputs assigned = true := by decide +kernel

theorem body_mass : degCheck unitGrading massTable body = true := by decide +kernel

theorem body_length : degCheck unitGrading lengthTable body = true := by decide +kernel

theorem body_time : degCheck unitGrading timeTable body = true := by decide +kernel

theorem body_mirror : degCheck signGrading mirrorTable body = true := by decide +kernel

theorem body_reversal : degCheck signGrading reversalTable body = true := by decide +kernel

theorem body_upright : cstCheck uprightTable body = true := by decide +kernel

end BP.EL
