import Verif.Gen.Jacobian
import Verif.Lemmas.EvalLinearChecks
import Verif.Lemmas.JacobianSound

/-!
# The Jacobian: checks of the body of `eval_linear`, evaluated by the kernel
-/

namespace BP.EL

/-- The partial derivatives by `q1` … `q9`, `u4`, `u6`, `u7`, `u9`, `T4`, `T6`, `T7`, `T9`. -/
def jacDirs : List JTree :=
  [jacDir0, jacDir1, jacDir2, jacDir3, jacDir4, jacDir5, jacDir6, jacDir7, jacDir8, jacDir9, jacDir10,
    jacDir11, jacDir12, jacDir13, jacDir14, jacDir15, jacDir16]

/-- One of them. -/
def jacDir (j : ℕ) : JTree := jacDirs.getD j .nil

/-- The statements up to `u9p`, lines 74-1088. -/
def rateBody : List (ℕ × E) := body.take 1015

/-- The cells assigned by them. -/
def rateMarks : ℕ := rateBody.foldl (fun d s => Nat.lor d (Nat.shiftLeft 1 s.1)) inputs

/-- The entries for the arguments. -/
def inputOk (l : ℕ) : Bool :=
  match jacValues.look l with
  | some (.atom p) => atomOk jacCells p l
  | _ => false

/-- Is it the statement for a cosine? -/
def isCos (t : ℕ × ℕ × ℕ) : ℕ × E → Bool
  | (c, .cos (.z l)) => (Nat.beq c t.2.1).and (Nat.beq l t.1)
  | _ => false

/-- Is it the statement for a sine? -/
def isSin (t : ℕ × ℕ × ℕ) : ℕ × E → Bool
  | (c, .sin (.z l)) => (Nat.beq c t.2.2).and (Nat.beq l t.1)
  | _ => false

/-- The statements for a cosine and a sine. -/
def trigStmt (t : ℕ × ℕ × ℕ) : Bool :=
  (body.any (isCos t)).and ((body.any (isSin t)).and ((inputOk t.2.1).and (inputOk t.2.2)))

/-- The derivatives of the arguments. -/
def dirInput (j l : ℕ) : Bool :=
  qeq (jder (jacDir j) l) (bif Nat.beq l (Nat.add 5031 j) then ([(1, 1)], 0) else ([], 0))

/-- The cell of a rate. -/
def rateCell (i : ℕ) : ℕ :=
  [5086, 5088, 5090, 5091, 5093, 5094, 5095, 5097, 5098, 5099, 5100, 5101, 5102].getD i 0

/-- Is the entry of `A` or `B` the derivative of the rate? -/
def matrixOk (i j : ℕ) : Bool :=
  qeqO (jval jacValues (bif Nat.ble j 12 then 5200 + 13 * i + j else 5400 + 4 * i + (j - 13)))
    (jder (jacDir j) (rateCell i))

theorem jac_rate_defined : definedCheck rateBody inputs rateMarks = true := by decide +kernel

theorem jac_trig : trigCells.all trigStmt = true := by decide +kernel

theorem jac_inputs : (List.range' 5033 52).all inputOk = true := by decide +kernel

theorem jac_dir_inputs :
    ((List.range 17).all fun j => (List.range' 5033 52).all (dirInput j)) = true := by decide +kernel

theorem jac_matrix : ((List.range 13).all fun i => (List.range 17).all (matrixOk i)) = true := by decide +kernel

theorem jac_rates : ((List.range 13).all fun i => Nat.testBit rateMarks (rateCell i)) = true := by decide +kernel

/-- A statement that divides by a cell. -/
def isDiv (l : ℕ) : ℕ × E → Bool
  | (_, .div _ (.z k)) => Nat.beq k l
  | _ => false

/-- The statement for the root. -/
def isRoot : ℕ × E → Bool
  | (c, .hpow (.z l) k) => (Nat.beq c 36).and ((Nat.beq l 35).and (Nat.beq k 1))
  | _ => false

theorem jac_div : ([36, 494, 1001].all fun l => body.any (isDiv l)) = true := by decide +kernel

theorem jac_root : body.any isRoot = true := by decide +kernel

theorem jac_cells : cellOf jacCells 2 = 36 ∧ cellOf jacCells 5 = 494 ∧ cellOf jacCells 11 = 1001 := by decide +kernel

theorem jac_safe : (body.all fun s => s.2.safeCheck jacValues) = true := by decide +kernel

theorem jac_rate_assigned : (rateBody.all fun s => Nat.testBit assigned s.1) = true := by decide +kernel

theorem jac_inputs_assigned (l : ℕ) (h : 5033 ≤ l ∧ l < 5085) : Nat.testBit assigned l = true := by
  have e : ((List.range' 5033 52).all fun l => Nat.testBit assigned l) = true := by decide +kernel
  exact List.all_eq_true.mp e l (by rw [List.mem_range'_1]; omega)

end BP.EL
