import Verif.Model.Models

/-!
# Overriding parameters, as a user understands it

`evaluatedAt stored ov i` is the parameter dictionary the user asks for with the keyword
arguments `ov`, at position `i` of the arrays among them.
-/

namespace BP.Spec

/-- The value of a parameter with stored value `x` when the keyword argument is `o`. -/
def chosen (i : ℕ) (x : SVal) : Option OVal → SVal
  | none => x
  | some (.num y) => ⟨.pyFloat, y.val⟩
  | some (.arr ys) => (ys[i]?).getD x
  | some .unsized => x

/-- Known parameters take the override, the others keep the stored value, unknown overrides
are ignored. -/
def evaluatedAt (stored : Dict SVal) (ov : Dict OVal) (i : ℕ) : Dict SVal :=
  stored.map fun e => (e.1, chosen i e.2 (ov.find? e.1))

/-- An array replaced by its `i`-th number; everything else is left alone. -/
def itemAt (i : ℕ) : OVal → OVal
  | .num x => .num x
  | .unsized => .unsized
  | .arr ys => match ys[i]? with
    | some y => .num y
    | none => .arr ys

/-- The same keyword arguments with every array replaced by its `i`-th number. -/
def scalarsAt (ov : Dict OVal) (i : ℕ) : Dict OVal := ov.map fun e => (e.1, itemAt i e.2)

/-- The keyword arguments naming a parameter: none is unusable, all arrays have length `n`. -/
def Compatible (stored : Dict SVal) (ov : Dict OVal) (n : ℕ) : Prop :=
  (∀ k, stored.has k = true → (k, OVal.unsized) ∉ ov) ∧
  ∀ k ys, stored.has k = true → (k, OVal.arr ys) ∈ ov → ys.length = n

/-- A parameter of the model whose keyword argument is an array. -/
def Swept (stored : Dict SVal) (ov : Dict OVal) (k : String) : Prop :=
  stored.has k = true ∧ ∃ ys, (k, OVal.arr ys) ∈ ov

end BP.Spec
