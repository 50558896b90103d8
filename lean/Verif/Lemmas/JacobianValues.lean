import Verif.Lemmas.JacobianChecks

/-!
# The Jacobian: the check of the values, evaluated by the kernel
-/

namespace BP.EL

theorem jac_values : jvalCheck jacCells jacValues inputs body = true := by decide +kernel

end BP.EL
