import Verif.Model.Inertia
import Verif.Model.Uncertain

/-!
# `part_inertia_tensor` for dictionaries that hold floats and numbers with uncertainties
-/

namespace BP

open Matrix

/-- A value of a parameter dictionary: a float or a `UFloat` (inertia.py:175). -/
inductive Quantity (ι : Type) where
  | float (x : ℝ)
  | uncertain (u : UNum ι)

/-- inertia.py:181-189: the cells of `axes` that are not None, in the order of the loop. -/
def tensorCells (part : String) : List (Fin 3 × Fin 3 × String) :=
  if part ∈ ["F", "R", "D", "FR", "RD", "FRD", ""] then [(0, 0, "xx"), (1, 1, "yy"), (2, 2, "xx")]
  else [(0, 0, "xx"), (0, 2, "xz"), (1, 1, "yy"), (2, 0, "xz"), (2, 2, "zz")]

/-- inertia.py:193, `I[i, j] = value`: an array of type float64 takes floats only (`float(value)` of a `UFloat` raises
`TypeError`), one of type object takes everything. -/
def storeCell {ι : Type} (object : Bool) (I : Fin 3 → Fin 3 → Quantity ι) (i j : Fin 3) (value : Quantity ι) :
    Except PyErr (Fin 3 → Fin 3 → Quantity ι) :=
  match object, value with
  | false, .uncertain _ => .error .typeError
  | _, _ => .ok fun a b => if a = i ∧ b = j then value else I a b

/-- inertia.py:190-193, the two loops. -/
def fillTensor {ι : Type} (par : Dict (Quantity ι)) (part : String) (object : Bool) :
    (Fin 3 → Fin 3 → Quantity ι) → List (Fin 3 × Fin 3 × String) → Except PyErr (Fin 3 → Fin 3 → Quantity ι)
  | I, [] => .ok I
  | I, (i, j, col) :: cells =>
    match par.get ("I" ++ part ++ col) with
    | .error e => .error e
    | .ok value =>
      match storeCell object I i j value with
      | .error e => .error e
      | .ok I' => fillTensor par part object I' cells

/-- inertia.py:152-194, `part_inertia_tensor`: the type of `par['IBxx']` decides the type of the array (lines 175-178), whatever
the part. -/
def mixedTensor {ι : Type} (par : Dict (Quantity ι)) (part : String) : Except PyErr (Fin 3 → Fin 3 → Quantity ι) :=
  match par.get "IBxx" with
  | .error e => .error e
  | .ok b =>
    let object := match b with
      | .uncertain _ => true
      | .float _ => false
    fillTensor par part object (fun _ _ => .float 0) (tensorCells part)

end BP
