import Verif.Model.Inertia
import Verif.Model.Models

/-!
# `cartesian` with the types of the arrays
-/

namespace BP

/-- com.py:45, an array `np.asarray(x)`: of integers or of floats. -/
structure NpArray where
  integer : Bool
  data : List ℝ

/-- com.py:53, a value as it is stored in an array: integer arrays drop the digits after the point. -/
noncomputable def storeAs (integer : Bool) (x : ℝ) : ℝ := if integer then truncZ x else x

/-- com.py:45-58 for a buffer whose type is given; as `cartesianInto`, but every column is stored with the type of the buffer. -/
noncomputable def cartesianBuffer (integer : Bool) : ℕ → List (List ℝ) → Except PyErr (List (List ℝ))
  | _, [] => .error .indexError
  | rows, a :: rest =>
    let n := ((a :: rest).map List.length).prod
    let m := n / a.length
    let col := a.flatMap fun x => List.replicate m x
    if col.length = rows ∨ col.length = 1 then
      let wide := if col.length = rows then col else col.flatMap fun x => List.replicate rows x
      let stored := wide.map (storeAs integer)
      match rest with
      | [] => .ok (stored.map fun x => [x])
      | _ :: _ =>
        match cartesianBuffer integer (min m rows) rest with
        | .error e => .error e
        | .ok sub =>
          let others := (List.range a.length).flatMap fun _ => sub
          .ok (List.zipWith (fun x r => x :: r) stored others)
    else .error .valueError

/-- com.py:45-58 with `out=None`: the buffer has the type of the first array (lines 46, 50). -/
noncomputable def typedCartesian : List NpArray → Except PyErr (List (List ℝ))
  | [] => .error .indexError
  | a :: rest => cartesianBuffer a.integer (((a :: rest).map NpArray.data).map List.length).prod ((a :: rest).map NpArray.data)

end BP
