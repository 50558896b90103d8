import Verif.Lemmas.JacobianChecks

/-!
# The Jacobian: the checks of the partial derivatives, evaluated by the kernel
-/

namespace BP.EL

theorem jac_dir0 : jdirCheck jacValues jacDir0 assigned rateBody = true := by decide +kernel

theorem jac_dir1 : jdirCheck jacValues jacDir1 assigned rateBody = true := by decide +kernel

theorem jac_dir2 : jdirCheck jacValues jacDir2 assigned rateBody = true := by decide +kernel

theorem jac_dir3 : jdirCheck jacValues jacDir3 assigned rateBody = true := by decide +kernel

theorem jac_dir4 : jdirCheck jacValues jacDir4 assigned rateBody = true := by decide +kernel

theorem jac_dir5 : jdirCheck jacValues jacDir5 assigned rateBody = true := by decide +kernel

theorem jac_dir6 : jdirCheck jacValues jacDir6 assigned rateBody = true := by decide +kernel

theorem jac_dir7 : jdirCheck jacValues jacDir7 assigned rateBody = true := by decide +kernel

theorem jac_dir8 : jdirCheck jacValues jacDir8 assigned rateBody = true := by decide +kernel

theorem jac_dir9 : jdirCheck jacValues jacDir9 assigned rateBody = true := by decide +kernel

theorem jac_dir10 : jdirCheck jacValues jacDir10 assigned rateBody = true := by decide +kernel

theorem jac_dir11 : jdirCheck jacValues jacDir11 assigned rateBody = true := by decide +kernel

theorem jac_dir12 : jdirCheck jacValues jacDir12 assigned rateBody = true := by decide +kernel

theorem jac_dir13 : jdirCheck jacValues jacDir13 assigned rateBody = true := by decide +kernel

theorem jac_dir14 : jdirCheck jacValues jacDir14 assigned rateBody = true := by decide +kernel

theorem jac_dir15 : jdirCheck jacValues jacDir15 assigned rateBody = true := by decide +kernel

theorem jac_dir16 : jdirCheck jacValues jacDir16 assigned rateBody = true := by decide +kernel

theorem jac_dirs (j : Fin 17) : jdirCheck jacValues (jacDir j) assigned rateBody = true := by
  fin_cases j
  · exact jac_dir0
  · exact jac_dir1
  · exact jac_dir2
  · exact jac_dir3
  · exact jac_dir4
  · exact jac_dir5
  · exact jac_dir6
  · exact jac_dir7
  · exact jac_dir8
  · exact jac_dir9
  · exact jac_dir10
  · exact jac_dir11
  · exact jac_dir12
  · exact jac_dir13
  · exact jac_dir14
  · exact jac_dir15
  · exact jac_dir16

end BP.EL
