import Verif.Lemmas.DynamicsTable

/-!
# The equations of motion: frames and forces
-/

namespace BP.EL

open E

/-- Polynomials. -/
def polys : FieldOps PolyQ where
  zero := ([], 0)
  one := ([(1, 1)], 0)
  add := paddq
  mul p q := (tmul dyn.angles dyn.S p.1 q.1, Nat.add p.2 q.2)
  neg := qneg

/-- The polynomial of a cell. -/
def cellPoly (l : ℕ) : PolyQ :=
  match jval dynTable l with
  | none => ([], 0)
  | some q => q

def confCells : Conf ℕ := ⟨1, 2, 3, 4, 5, 6, 7, 8, 9, 10, 11, 12, 17, 15, 13, 14, 5083, 5049, 5050, 5051, 5052⟩

def speedCells : Nine ℕ := ⟨5085, 5087, 5089, 5040, 5092, 5041, 5042, 5096, 5043⟩

def accCells : Nine ℕ := ⟨6001, 6002, 6003, 6004, 6005, 6006, 6007, 6008, 6009⟩

def otherCells : Nine ℕ := ⟨6011, 6012, 6013, 6014, 6015, 6016, 6017, 6018, 6019⟩

def heavyCells : Heavy ℕ := ⟨5071, 5072, 5073, 5074, 5075, 5076, 5077, 5078, 5079, 5080, 5081, 5054, 5055, 5057, 5056,
  5058, 5059, 5060, 5061, 5063, 5062, 5064, 5065, 5066, 5067, 5069, 5068⟩

/-- All of these cells are in the table. -/
def usedCells : List ℕ := [1, 2, 3, 4, 5, 6, 7, 8, 9, 10, 11, 12, 17, 15, 13, 14, 5085, 5087, 5089, 5092, 5096, 753, 754,
  755, 756, 538, 539, 540, 541, 542, 543, 544, 545, 546, 547, 548, 549, 550, 551, 407] ++ List.range' 5040 43 ++ [5083]

theorem dyn_used : (usedCells.all fun l => (Nat.testBit rateMarks l).and (jval dynTable l).isSome) = true := by
  decide +kernel

theorem dyn_more : (dynMore.all fun l => (jval dynTable l).isSome) = true := by decide +kernel

def confP : Conf PolyQ := confCells.map cellPoly

def speedP : Nine PolyQ := speedCells.map cellPoly

def accP : Nine PolyQ := accCells.map cellPoly

def otherP : Nine PolyQ := otherCells.map cellPoly

def heavyP : Heavy PolyQ := heavyCells.map cellPoly

/-- Equal vectors. -/
def veq (a b : Tri PolyQ) : Bool := (qeq a.x b.x).and ((qeq a.y b.y).and (qeq a.z b.z))

/-- Equal frames. -/
def freq (f g : Fr PolyQ) : Bool :=
  (veq f.v g.v).and ((veq f.w g.w).and ((veq f.vd g.vd).and ((veq f.wd g.wd).and (veq f.dn g.dn))))

/-- Equal up to accelerations. -/
def fveq (f g : Fr PolyQ) : Bool := (veq f.v g.v).and ((veq f.w g.w).and (veq f.dn g.dn))

theorem dyn_frames : (freq (toB polys confP speedP accP (frN polys speedP accP)) dynB &&
    freq (toA polys confP speedP accP dynB) dynA && freq (toC polys confP speedP accP dynA) dynC &&
    freq (toD polys confP speedP accP dynC) dynD && freq (toE polys confP speedP accP dynC) dynE &&
    freq (toF polys confP speedP accP dynE) dynF && freq (toH polys confP dynC) dynH &&
    freq (toG polys confP speedP accP dynH) dynG) = true := by decide +kernel

theorem vir_frames : (fveq (toB polys confP otherP otherP (frN polys otherP otherP)) virB &&
    fveq (toA polys confP otherP otherP virB) virA && fveq (toC polys confP otherP otherP virA) virC &&
    fveq (toD polys confP otherP otherP virC) virD && fveq (toE polys confP otherP otherP virC) virE &&
    fveq (toF polys confP otherP otherP virE) virF && fveq (toH polys confP virC) virH &&
    fveq (toG polys confP otherP otherP virH) virG) = true := by decide +kernel

/-- The bodies. -/
def dynFive : Five PolyQ := ⟨dynC, dynD, dynE, dynF, dynG⟩

def virFive : Five PolyQ := ⟨virC, virD, virE, virF, virG⟩

theorem dyn_weight : qeq (polys.mul (cellPoly 5053) (weight5 polys heavyP (centred polys confP heavyP virFive)))
    (polys.add (polys.add (polys.add (polys.mul (cellPoly 6014) dynWeight4) (polys.mul (cellPoly 6015) dynWeight5))
      (polys.mul (cellPoly 6017) dynWeight7)) (polys.mul (cellPoly 6019) dynWeight9)) = true := by decide +kernel

theorem dyn_force : (qeq (cellPoly 753)
      (polys.add (polys.add (cellPoly 5044) dynWeight4) (polys.mul (cellPoly 547) dynWeight5)) &&
    qeq (cellPoly 754) (cellPoly 5045) &&
    qeq (cellPoly 755)
      (polys.add (polys.add (cellPoly 5046) dynWeight7) (polys.mul (cellPoly 548) dynWeight5)) &&
    qeq (cellPoly 756) (polys.add (polys.add (cellPoly 5047) (cellPoly 407)) dynWeight9)) = true := by decide +kernel

/-- The check of a row. -/
def dynRowOk (s : ℕ × E) : Bool :=
  ((s.2.reads rateMarks).and (Nat.testBit rateMarks s.1)).and (qeqOO (s.2.tpoly dyn) (jval dynTable s.1))

theorem dyn_rows : dynRows.all dynRowOk = true := by decide +kernel

/-- Which cells the equations of motion read. -/
theorem dyn_reads : (dynRow.reads (Nat.lor rateMarks (Nat.shiftLeft (2 ^ 19 - 1) 6001))) = true := by decide +kernel

end BP.EL
