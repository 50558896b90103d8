import Verif.Model.EvalLinear

/-!
# The nonlinear equations of motion of the bicycle with a leaning rider

A state lists the coordinates `q1 … q9` and the speeds `u4, u6, u7, u9`.
-/

namespace BP.EL

/-- No division by zero, and roots of positive numbers only. -/
def E.Safe (m : ℕ → ℝ) : E → Prop
  | z _ => True
  | n _ => True
  | qt _ => True
  | neg a => a.Safe m
  | add a b => a.Safe m ∧ b.Safe m
  | sub a b => a.Safe m ∧ b.Safe m
  | mul a b => a.Safe m ∧ b.Safe m
  | div a b => (a.Safe m ∧ b.Safe m) ∧ b.val real m ≠ 0
  | pow a _ => a.Safe m
  | hpow a _ => a.Safe m ∧ 0 < a.val real m
  | sin a => a.Safe m
  | cos a => a.Safe m

end BP.EL

namespace BP.Spec

/-- The coordinates of a state. -/
def coords (x : Fin 13 → ℝ) (i : Fin 9) : ℝ := x (Fin.castAdd 4 i)

/-- The speeds of a state. -/
def speeds (x : Fin 13 → ℝ) (i : Fin 4) : ℝ := x (Fin.natAdd 9 i)

end BP.Spec
