import Verif.Gen.EvalLinear
import Verif.Gen.UprightPoly
import Verif.Lemmas.LeanFormulas

/-!
# The upright bicycle: checks of the body of `eval_linear`, evaluated by the kernel
-/

namespace BP.EL

/-- The cells that are treated as variables: the mass matrix, the driven inertia, and the
determinant. -/
def uprightAtoms : List ℕ := [949, 951, 945, 977, 979, 973, 981, 983, 905, 964, 1001]

/-- Every other cell is its polynomial in the table. -/
theorem body_poly : polyCheck uprightAtoms uprightPoly body = true := by decide +kernel

/-- The statement that assigns a cell. -/
def stmtOf (l : ℕ) : Option (ℕ × E) := body.find? fun s => Nat.beq s.1 l

/-- Is the expression assigned to a cell equal to `e`? -/
def closed (d l : ℕ) (e : E) : Bool :=
  match stmtOf l with
  | none => false
  | some s => (E.reads d (.sub s.2 e)).and (isPoly uprightPoly (.sub s.2 e) [])

/-- The cells that hold the mass matrix. -/
def massAt : Fin 3 → Fin 3 → ℕ
  | 0, 0 => 949
  | 0, 1 => 951
  | 0, 2 => 945
  | 1, 0 => 977
  | 1, 1 => 979
  | 1, 2 => 973
  | 2, 0 => 981
  | 2, 1 => 983
  | 2, 2 => 905

/-- The statements before the one for `z[1001]`, the determinant, by which others divide. -/
def before : List (ℕ × E) := body.take 978

/-- The cells that hold a value after these statements. -/
def marks : ℕ → List (ℕ × E) → ℕ
  | d, [] => d
  | d, s :: p => marks (Nat.lor d (Nat.shiftLeft 1 s.1)) p

/-- The cells assigned before the determinant. -/
def marked : ℕ := marks ((2 ^ 52 - 1) <<< 5033) before

theorem before_defined : definedCheck before ((2 ^ 52 - 1) <<< 5033) marked = true := by decide +kernel

theorem before_not : (before.all fun s => (Nat.beq s.1 1001).not) = true := by decide +kernel

theorem closed_mass : ∀ i j, closed marked (massAt i j) (cellLP.mass i j) = true := by decide +kernel

theorem closed_drive : closed marked 964 cellLP.drive = true := by decide +kernel

/-- The mass matrix as expressions. -/
def massCell (i j : Fin 3) : E := .z (massAt i j)

theorem closed_det : closed marked 1001 (.mul (.z 964) (det3 massCell)) = true := by decide +kernel

/-- An entry of `A`. -/
def aCell (i j : ℕ) : E := .z (5200 + 13 * i + j)

/-- An entry of `B`. -/
def bCell (i j : ℕ) : E := .z (5400 + 4 * i + j)

/-- The equation of motion `i` for the accelerations `X`, multiplied by the determinant. -/
def eqnOf (i : Fin 3) (X : ℕ → E) (rhs : E) : E :=
  massCell i 0 * (X 9 * .z 1001) + massCell i 1 * (X 11 * .z 1001) + massCell i 2 * (X 12 * .z 1001) +
    rhs * (.z 964 * det3 massCell)

/-- Is an expression 0? -/
def vanishes (d : ℕ) (e : E) : Bool := (e.reads d).and (isPoly uprightPoly e [])

theorem rows_stiff : ∀ i, vanishes assigned (eqnOf i (fun r => aCell r 3) (cellLP.stiff i 0)) = true ∧
    vanishes assigned (eqnOf i (fun r => aCell r 6) (cellLP.stiff i 1)) = true ∧
    vanishes assigned (eqnOf i (fun r => aCell r 8) (cellLP.stiff i 2)) = true := by decide +kernel

theorem rows_damp : ∀ i, vanishes assigned (eqnOf i (fun r => aCell r 9) (cellLP.damp i 0)) = true ∧
    vanishes assigned (eqnOf i (fun r => aCell r 11) (cellLP.damp i 1)) = true ∧
    vanishes assigned (eqnOf i (fun r => aCell r 12) (cellLP.damp i 2)) = true := by decide +kernel

theorem rows_input : ∀ i : Fin 3,
    vanishes assigned (eqnOf i (fun r => bCell r 0) (if i = 0 then -1 else 0)) = true ∧
    vanishes assigned (eqnOf i (fun r => bCell r 2) (if i = 1 then -1 else 0)) = true ∧
    vanishes assigned (eqnOf i (fun r => bCell r 3) (if i = 2 then -1 else 0)) = true := by decide +kernel

/-- The equation of the rear wheel. -/
theorem row_drive : vanishes assigned (bCell 10 1 * .z 1001 - det3 massCell) = true := by decide +kernel

/-- The rates of the coordinates. -/
theorem rows_kin :
    vanishes assigned (aCell 0 10 + cellLP.rr) = true ∧
    vanishes assigned (aCell 1 2 - cellLP.v) = true ∧
    vanishes assigned (aCell 2 6 - cellLP.v * cellLP.kap) = true ∧
    vanishes assigned (aCell 2 11 - cellLP.mu) = true ∧
    vanishes assigned (aCell 7 10 - cellLP.rr / cellLP.rf) = true := by decide +kernel

/-- Where entries of `A` may differ from 0. -/
def aPattern (i j : ℕ) : Bool :=
  [(0, 10), (1, 2), (2, 6), (2, 11), (3, 9), (5, 10), (6, 11), (7, 10), (8, 12)].contains (i, j) ||
    ([9, 11, 12].contains i && [3, 6, 8, 9, 11, 12].contains j)

/-- Where entries of `B` may differ from 0. -/
def bPattern (i j : ℕ) : Bool := (i, j) == (10, 1) || ([9, 11, 12].contains i && [0, 2, 3].contains j)

theorem zeros_A : ∀ i j : Fin 13, aPattern i j = false →
    vanishes assigned (.z (5200 + 13 * i + j)) = true := by decide +kernel

theorem zeros_B : ∀ (i : Fin 13) (j : Fin 4), bPattern i j = false →
    vanishes assigned (.z (5400 + 4 * i + j)) = true := by decide +kernel

theorem ones_A : ∀ t ∈ [(3, 9), (5, 10), (6, 11), (8, 12)],
    vanishes assigned (aCell t.1 t.2 - 1) = true := by decide +kernel

/-- The variables of the table. -/
theorem vars_table : ∀ t ∈ uprightVars, (uprightPoly.look t.2 = [(t.1, 1)]) ∧ t.1.Prime ∧
    t.1 ∉ [2, 3, 5, 11, 13, 17, 19] ∧ (uprightVars.find? fun s => s.1 == t.1) = some t := by decide +kernel

theorem atoms_vars : ∀ a ∈ uprightAtoms, a ≠ 1001 → ∃ t ∈ uprightVars, t.2 = a := by decide +kernel

theorem det_table : uprightPoly.look 1001 = [(13, 1)] := by decide +kernel

/-- The arguments other than `d1`, `d2` and the pitch: variables or 0. -/
theorem inputs_table : ∀ k : Fin 52, k = 2 ∨ k = 51 ∨ k = 16 ∨ k = 17 ∨
    (∃ t ∈ uprightVars, t.2 = 5033 + k) ∨ ((k.1 < 15 ∧ k ≠ 8) ∧ uprightPoly.look (5033 + k) = []) := by
  decide +kernel

/-- `d1 = w cos λ - (rr - rf) sin λ - d3`, `d2 = w sin λ + (rr - rf) cos λ`. -/
theorem d_table :
    peq (uprightPoly.look 5049) (padd (padd [(3 * 19, 1)] [(2 * 7, 1)]) (padd [(31, -1)] [(2 * 181, -1)])) = true ∧
    peq (uprightPoly.look 5050) (padd (padd [(3 * 2, 1)] [(19 * 181, 1)]) [(19 * 7, -1)]) = true := by decide +kernel

end BP.EL
