import Verif.Lemmas.Laurent

/-!
# Tables of values and of partial derivatives of cells

A cell is a variable (a prime, see Lemmas/Laurent.lean), or a polynomial in such variables over a
power of 4, or a multiple of another cell.
-/

namespace BP.EL

/-- What a table says of a cell. -/
inductive JEnt where
  /-- the variable `p` -/
  | atom (p : ℕ)
  /-- the variable `p`; the expression assigned to it is `q / 4 ^ k` -/
  | adef (p : ℕ) (q : Poly) (k : ℕ)
  /-- `q / 4 ^ k` -/
  | trans (q : Poly) (k : ℕ)
  /-- `a / 4 ^ k` times the cell `r`, whose variable is `p` -/
  | mult (p r : ℕ) (a : ℤ) (k : ℕ)

/-- A table: the bits of a number lead to its entry. -/
inductive JTree where
  | nil
  | leaf (e : JEnt)
  | node (a b : JTree)

/-- The entry for a number. -/
def JTree.look : JTree → ℕ → Option JEnt
  | nil, _ => none
  | leaf e, _ => some e
  | node a b, l => bif Nat.beq (Nat.mod l 2) 0 then a.look (Nat.div l 2) else b.look (Nat.div l 2)

end BP.EL
