import Verif.Gen.DynamicsEqs
import Verif.Lemmas.Table

/-!
# The equations of motion: checks of the body of `eval_linear`, evaluated by the kernel
-/

namespace BP.EL

open E

/-- The table for the equations of motion. -/
def dyn : Turn where
  V := dynTable
  rot := 5033
  angles := [(2, 3), (17, 19), (23, 29), (31, 37), (41, 43), (47, 53), (59, 61), (67, 71)]
  S := 3 * 19 * 29 * 37 * 43 * 53 * 61 * 71
  ghosts := []

/-- Cells for the accelerations, and for other speeds. -/
def dynMore : List ℕ := List.range' 6001 9 ++ List.range' 6011 9

theorem dyn_setup : tableSetup dynPrimes dyn dynMore = true := by decide +kernel

theorem dyn_ok1 : (rateBody.take 500).all (tableOk dynPrimes dyn) = true := by decide +kernel

theorem dyn_ok2 : ((rateBody.drop 500).take 50).all (tableOk dynPrimes dyn) = true := by decide +kernel

theorem dyn_ok3 : ((rateBody.drop 550).take 50).all (tableOk dynPrimes dyn) = true := by decide +kernel

theorem dyn_ok4 : ((rateBody.drop 600).take 50).all (tableOk dynPrimes dyn) = true := by decide +kernel

theorem dyn_ok5 : ((rateBody.drop 650).take 100).all (tableOk dynPrimes dyn) = true := by decide +kernel

theorem dyn_ok6 : (rateBody.drop 750).all (tableOk dynPrimes dyn) = true := by decide +kernel

theorem dyn_ok : rateBody.all (tableOk dynPrimes dyn) = true := by
  rw [← List.take_append_drop 500 rateBody, List.all_append, dyn_ok1, Bool.true_and]
  rw [← List.take_append_drop 50 (rateBody.drop 500), List.all_append, dyn_ok2, Bool.true_and, List.drop_drop]
  rw [← List.take_append_drop 50 (rateBody.drop 550), List.all_append, dyn_ok3, Bool.true_and, List.drop_drop]
  rw [← List.take_append_drop 50 (rateBody.drop 600), List.all_append, dyn_ok4, Bool.true_and, List.drop_drop]
  rw [← List.take_append_drop 100 (rateBody.drop 650), List.all_append, dyn_ok5, Bool.true_and, List.drop_drop]
  exact dyn_ok6

end BP.EL
