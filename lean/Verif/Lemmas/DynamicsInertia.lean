import Verif.Lemmas.DynamicsChecks

/-!
# The equations of motion: inertia
-/

namespace BP.EL

theorem dyn_inertia : qeqO (dynRow.tpoly dyn)
    (inertia5 polys heavyP (centred polys confP heavyP dynFive) (centred polys confP heavyP virFive)) = true := by
  decide +kernel

end BP.EL
