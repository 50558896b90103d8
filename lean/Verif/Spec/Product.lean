/-!
# Specification: cartesian product in lexicographic order of positions
-/

namespace BP.Spec

/-- All ways to pick one element of each list, the first list varying slowest. -/
def product {α : Type} : List (List α) → List (List α)
  | [] => [[]]
  | a :: rest => a.flatMap fun x => (product rest).map fun r => x :: r

end BP.Spec
