import Mathlib.Analysis.SpecialFunctions.Trigonometric.Basic
import Mathlib.LinearAlgebra.Matrix.Notation
import Mathlib.LinearAlgebra.Matrix.Determinant.Basic
import Mathlib.Data.List.Sort
import Mathlib.Data.String.Basic
import Verif.Model.Geometry

/-!
# Model of bicycleparameters/com.py, inertia.py and conversions.py
-/

namespace BP

open Real Matrix

/-- An array of shape (3, 3), as in inertia.py:94-229. -/
abbrev Mat3 := Matrix (Fin 3) (Fin 3) ℝ
/-- An array of shape (3,), as in com.py:215-240, inertia.py:122-150. -/
abbrev Vec3 := Fin 3 → ℝ

/-! ## com.py -/

/-- com.py:45-58, `cartesian` filling the buffer `out` of `rows` rows: column 0 is
`np.repeat(arrays[0], m)` (line 53), the remaining columns of rows `0..m` are
filled by the recursive call (line 55) and copied to the rows `j*m..(j+1)*m` for
every other `j` (lines 56-57).  Assigning a column of the wrong length raises
`ValueError`, except that numpy broadcasts a column of length 1; `n // 0` is 0
for numpy integers.  Simplification: the buffer is returned instead of mutated
and values are not cast to the dtype of the first array. -/
def cartesianInto {α : Type} : ℕ → List (List α) → Except PyErr (List (List α))
  | _, [] => .error .indexError
  | rows, a :: rest =>
    let n := ((a :: rest).map List.length).prod
    let m := n / a.length
    let col := a.flatMap fun x => List.replicate m x
    if col.length = rows ∨ col.length = 1 then
      let col0 := if col.length = rows then col else col.flatMap fun x => List.replicate rows x
      match rest with
      | [] => .ok (col0.map fun x => [x])
      | _ :: _ =>
        match cartesianInto (min m rows) rest with
        | .error e => .error e
        | .ok sub =>
          let others := (List.range a.length).flatMap fun _ => sub
          .ok (List.zipWith (fun x r => x :: r) col0 others)
    else .error .valueError

/-- com.py:45-58 with `out=None`: the buffer has `n = prod(sizes)` rows (line 50). -/
def cartesian {α : Type} (arrays : List (List α)) : Except PyErr (List (List α)) :=
  cartesianInto (arrays.map List.length).prod arrays

/-- com.py:93-96: the intersection of two lines `z = s x + b`, by the inverse of
`[[-s1, 1], [-s2, 1]]`.  Equal slopes give a singular matrix (`LinAlgError`);
here the inverse is totalised, theorems carry the guard. -/
noncomputable def lineIntersection (l1 l2 : ℝ × ℝ) : Fin 2 → ℝ :=
  invM !![-l1.1, 1; -l2.1, 1] *ᵥ ![l1.2, l2.2]

/-- com.py:80-87: all index pairs without the diagonal. -/
def indexPairs (n : ℕ) : Except PyErr (List (List ℕ)) :=
  match cartesian [List.range n, List.range n] with
  | .error e => .error e
  | .ok rows => .ok (rows.filter fun row => row.getD 0 0 ≠ row.getD 1 0)

open Classical in
/-- com.py:80-99 for the lines `(slope, intercept)`: the mean of the pairwise
intersections.  Equal slopes make `a.I` (line 96) raise `LinAlgError`; the mean
of no rows is `0 / 0` on Python integers (object array, line 97). -/
noncomputable def centerOfMass (lines : List (ℝ × ℝ)) : Except PyErr (ℝ × ℝ) :=
  match indexPairs lines.length with
  | .error e => .error e
  | .ok comb =>
    let pairs := comb.map fun row =>
      (lines.getD (row.getD 0 0) (0, 0), lines.getD (row.getD 1 0) (0, 0))
    if ∃ q ∈ pairs, q.1.1 = q.2.1 then .error .linAlgError
    else if pairs = [] then .error .zeroDivision
    else
      let lineX := pairs.map fun q => lineIntersection q.1 q.2
      .ok ((lineX.map fun p => p 0).sum / lineX.length, (lineX.map fun p => p 1).sum / lineX.length)

/-- com.py:140-161, `(m, b, beta)`; `lam`, `rR`, `rF`, `w` are the entries of
`par`.  Simplification: `par` is read as needed, missing keys are not modelled. -/
noncomputable def comLine (alpha a lam rR rF w : ℝ) (part : String) (l1 l2 : ℝ) :
    Except PyErr (ℝ × ℝ × ℝ) :=
  let beta := lam - alpha * π / 180
  let m := -tan beta
  if part = "B" then .ok (m, -a / cos beta - rR, beta)
  else if part = "S" ∨ part = "H" then .ok (m, -a / cos beta - rF + w * tan beta, beta)
  else if part = "G" then
    match fwheelToHandlebarRef lam l1 l2 with
    | .error e => .error e
    | .ok (u1, u2) => .ok (m, -a / cos beta - (rF + u2) + (w - u1) * tan beta, beta)
  else .error (.keyError "")

/-- com.py:186-196: the initial dictionaries of lists. -/
def comLineParts (forkIsSplit : Bool) : List String :=
  if forkIsSplit then ["B", "G", "S"] else ["B", "H"]

/-- com.py:207-210: one orientation, appended to the lists of its part.  Appending
to the list of a part that is not a key raises `KeyError`. -/
noncomputable def comLineStep (par mp : Dict ℝ) (l1 l2 : ℝ) (acc : Dict (List (ℝ × ℝ × ℝ)))
    (key : String) : Except PyErr (Dict (List (ℝ × ℝ × ℝ))) :=
  let rest := String.ofList (key.toList.drop 5)
  match Dict.require mp [key, "a" ++ rest] with
  | .error e => .error e
  | .ok () =>
    match key.toList[5]? with
    | none => .error .indexError
    | some ch =>
      let part := String.ofList [ch]
      match comLine (Dict.getD mp key 0) (Dict.getD mp ("a" ++ rest) 0) (Dict.getD par "lam" 0)
          (Dict.getD par "rR" 0) (Dict.getD par "rF" 0) (Dict.getD par "w" 0) part l1 l2 with
      | .error e => .error e
      | .ok t =>
        match Dict.find? acc part with
        | none => .error (.keyError part)
        | some l => .ok (Dict.set acc part (l ++ [t]))

/-- com.py:199-200: the keys that start with "alpha", sorted. -/
def alphaKeys (mp : Dict ℝ) : List String :=
  ((Dict.keys mp).filter fun k => "alpha".toList.isPrefixOf k.toList).insertionSort (· ≤ ·)

/-- com.py:198-212: slopes, intercepts and angles per part, as one dictionary of
triples (the code keeps three dictionaries that are extended in step).  `l1`, `l2`
are computed by `calculate_l1_l2` (lines 187-188) or 0. -/
noncomputable def partComLines (mp par : Dict ℝ) (forkIsSplit : Bool) (l1 l2 : ℝ) :
    Except PyErr (Dict (List (ℝ × ℝ × ℝ))) :=
  (alphaKeys mp).foldlM (comLineStep par mp l1 l2)
    ((comLineParts forkIsSplit).map fun p => (p, []))

/-- com.py:234-237 for the columns `(mass, coordinates)`: `(mT, cT)`. -/
noncomputable def totalCom (bodies : List (ℝ × Vec3)) : ℝ × Vec3 :=
  let mT := (bodies.map fun b => b.1).sum
  (mT, fun i => (bodies.map fun b => b.1 * b.2 i).sum / mT)

/-! ## inertia.py -/

/-- inertia.py:142-149. -/
def parallelAxis (Ic : Mat3) (m : ℝ) (d : Vec3) : Mat3 :=
  let a := d 0
  let b := d 1
  let c := d 2
  Ic + m • !![b ^ 2 + c ^ 2, -a * b, -a * c;
              -a * b, c ^ 2 + a ^ 2, -b * c;
              -a * c, -b * c, a ^ 2 + b ^ 2]

/-- The entries `m?, x?, y?, z?, I?xx, I?xz, I?yy, I?zz` of one part. (inertia.py:11-64) -/
structure Part where
  (m x y z Ixx Ixz Iyy Izz : ℝ)

/-- inertia.py:187-193, `part_inertia_tensor` for a part that is not a wheel. -/
def Part.tensor (p : Part) : Mat3 := !![p.Ixx, 0, p.Ixz; 0, p.Iyy, 0; p.Ixz, 0, p.Izz]

/-- inertia.py:175-194 on dictionaries: `par['IBxx']` is always read (line 175),
`part in 'FRD'` is a substring test. -/
noncomputable def partInertiaTensor (par : Dict ℝ) (part : String) : Except PyErr Mat3 :=
  let v := fun s => Dict.getD par ("I" ++ part ++ s) 0
  if part ∈ ["F", "R", "D", "FR", "RD", "FRD", ""] then
    match Dict.require par ["IBxx", "I" ++ part ++ "xx", "I" ++ part ++ "yy"] with
    | .error e => .error e
    | .ok () => .ok !![v "xx", 0, 0; 0, v "yy", 0; 0, 0, v "xx"]
  else
    match Dict.require par ["IBxx", "I" ++ part ++ "xx", "I" ++ part ++ "xz", "I" ++ part ++ "yy",
      "I" ++ part ++ "zz"] with
    | .error e => .error e
    | .ok () => .ok !![v "xx", 0, v "xz"; 0, v "yy", 0; v "xz", 0, v "zz"]

/-- inertia.py:33-62, the numbers: bicycle frame and rider to combined frame.
The bicycle's y coordinate is taken as 0 in `coordinates` (line 36) and in
`dBicycle` (line 49); the result's y coordinate is 0 (line 57). -/
noncomputable def combineParts (bike rider : Part) : Part :=
  let t := totalCom [(rider.m, ![rider.x, rider.y, rider.z]), (bike.m, ![bike.x, 0, bike.z])]
  let cT := t.2
  let dRider : Vec3 := ![rider.x - cT 0, rider.y - cT 1, rider.z - cT 2]
  let dBicycle : Vec3 := ![bike.x - cT 0, 0, bike.z - cT 2]
  let I := parallelAxis rider.tensor rider.m dRider + parallelAxis bike.tensor bike.m dBicycle
  { m := t.1, x := cT 0, y := 0, z := cT 2, Ixx := I 0 0, Ixz := I 0 2, Iyy := I 1 1, Izz := I 2 2 }

/-- The entries of a dictionary for frame B (0 when missing). (inertia.py:11-64) -/
noncomputable def partB (d : Dict ℝ) : Part :=
  let v := fun k => Dict.getD d k 0
  ⟨v "mB", v "xB", v "yB", v "zB", v "IBxx", v "IBxz", v "IByy", v "IBzz"⟩

/-- inertia.py:11-64: the caller's bicycle dictionary after the call.  The eight
assignments come after all reads. -/
noncomputable def combineBikeRider (bicyclePar riderPar : Dict ℝ) : Except PyErr (Dict ℝ) :=
  match Dict.require riderPar ["mB", "xB", "yB", "zB", "IBxx", "IBxz", "IByy", "IBzz"] with
  | .error e => .error e
  | .ok () =>
    match Dict.require bicyclePar ["mB", "xB", "zB", "IBxx", "IBxz", "IByy", "IBzz"] with
    | .error e => .error e
    | .ok () =>
      let c := combineParts (partB bicyclePar) (partB riderPar)
      .ok (Dict.set (Dict.set (Dict.set (Dict.set (Dict.set (Dict.set (Dict.set (Dict.set bicyclePar
        "xB" c.x) "zB" c.z) "yB" c.y) "mB" c.m) "IBxx" c.Ixx) "IBxz" c.Ixz) "IByy" c.Iyy) "IBzz" c.Izz)

/-- inertia.py:89 -/
noncomputable def compoundPendulumInertia (m g l T : ℝ) : ℝ :=
  (T / 2 / π) ^ 2 * m * g * l - m * l ^ 2

/-- inertia.py:117: row `i` of `betaMat`. -/
noncomputable def betaMat {n : ℕ} (beta : Fin n → ℝ) : Matrix (Fin n) (Fin 3) ℝ :=
  fun i => ![cos (beta i) ^ 2, -2 * sin (beta i) * cos (beta i), sin (beta i) ^ 2]

/-- inertia.py:115-119.  `matInv` is the `.I` attribute of a `unumpy.matrix`: the
inverse of a square matrix, else the pseudo-inverse; a parameter. -/
noncomputable def inertiaComponents {n : ℕ}
    (matInv : Matrix (Fin n) (Fin 3) ℝ → Matrix (Fin 3) (Fin n) ℝ)
    (jay beta : Fin n → ℝ) : Vec3 :=
  matInv (betaMat beta) *ᵥ jay

/-- inertia.py:213-217.  `np.linalg.eig` has returned the eigenvalues `Ip` and the
matrix `C` whose column `i` belongs to `Ip[i]`; `argsort` is `np.argsort`.  The
result is `Ip[indices]` and `C.T[indices]`. -/
def principalAxes (argsort : Vec3 → Fin 3 → Fin 3) (Ip : Vec3) (C : Mat3) : Vec3 × Mat3 :=
  let indices := argsort Ip
  (fun i => Ip (indices i), fun i => Cᵀ (indices i))

/-- inertia.py:222-226 and conversions.py:26-30: the rotation matrix. -/
noncomputable def rotY (angle : ℝ) : Mat3 :=
  !![cos angle, 0, -sin angle; 0, 1, 0; sin angle, 0, cos angle]

/-- inertia.py:227-228 and conversions.py:31. -/
noncomputable def rotateInertiaTensor (I : Mat3) (angle : ℝ) : Mat3 :=
  rotY angle * (I * (rotY angle)ᵀ)

/-- inertia.py:245 -/
noncomputable def torInertia (k T : ℝ) : ℝ := k * T ^ 2 / 4 / π ^ 2

/-- inertia.py:264 -/
noncomputable def torsionalPendulumStiffness (I T : ℝ) : ℝ := 4 * I * π ^ 2 / T ^ 2

/-- inertia.py:292-295, `(Ix, Iy, Iz)` -/
noncomputable def tubeInertia (l m ro ri : ℝ) : ℝ × ℝ × ℝ :=
  let Ix := m / 2 * (ro ^ 2 + ri ^ 2)
  let Iy := m / 12 * (3 * ro ^ 2 + 3 * ri ^ 2 + l ^ 2)
  (Ix, Iy, Iy)

/-! ## conversions.py -/

/-- conversions.py:48-49. -/
noncomputable def sumCentralInertias (m1 : ℝ) (com1 : Vec3) (I1 : Mat3) (m2 : ℝ) (com2 : Vec3)
    (I2 : Mat3) : Mat3 :=
  let com := (totalCom [(m1, com1), (m2, com2)]).2
  parallelAxis I1 m1 (com - com1) + parallelAxis I2 m2 (com - com2)

/-- conversions.py:87-88, 91-92, 112-113: central inertia from radii of gyration
along the principal axes a, b (in the xz plane) and y. -/
noncomputable def principalInertia (m kaa kyy kbb alpha : ℝ) : Mat3 :=
  rotateInertiaTensor (m • Matrix.diagonal ![kaa ^ 2, kyy ^ 2, kbb ^ 2]) (-alpha)

/-- All keys conversions.py:71-139 reads, in order of first use. -/
def principalKeys : List String :=
  ["w", "c", "lam", "g", "v", "xD", "xP", "yD", "yP", "zD", "zP", "mD", "mP",
   "kDaa", "kDyy", "kDbb", "alphaD", "kPaa", "kPyy", "kPbb", "alphaP",
   "mH", "xH", "yH", "zH", "kHaa", "kHyy", "kHbb", "alphaH",
   "rR", "mR", "kRaa", "kRyy", "rF", "mF", "kFaa", "kFyy"]

/-- conversions.py:52-142. -/
noncomputable def convertPrincipalToBenchmark (p : Dict ℝ) : Except PyErr (Dict ℝ) :=
  let v := fun k => Dict.getD p k 0
  match Dict.require p principalKeys with
  | .error e => .error e
  | .ok () =>
    let comD : Vec3 := ![v "xD", v "yD", v "zD"]
    let comP : Vec3 := ![v "xP", v "yP", v "zP"]
    let t := totalCom [(v "mD", comD), (v "mP", comP)]
    let IB := sumCentralInertias
      (v "mD") comD (principalInertia (v "mD") (v "kDaa") (v "kDyy") (v "kDbb") (v "alphaD"))
      (v "mP") comP (principalInertia (v "mP") (v "kPaa") (v "kPyy") (v "kPbb") (v "alphaP"))
    let IH := principalInertia (v "mH") (v "kHaa") (v "kHyy") (v "kHbb") (v "alphaH")
    .ok [("w", v "w"), ("c", v "c"), ("lam", v "lam"), ("g", v "g"), ("v", v "v"),
      ("mB", t.1), ("xB", t.2 0), ("yB", t.2 1), ("zB", t.2 2),
      ("IBxx", IB 0 0), ("IByy", IB 1 1), ("IBzz", IB 2 2), ("IBxz", IB 0 2),
      ("mH", v "mH"), ("xH", v "xH"), ("yH", v "yH"), ("zH", v "zH"),
      ("IHxx", IH 0 0), ("IHyy", IH 1 1), ("IHzz", IH 2 2), ("IHxz", IH 0 2),
      ("rR", v "rR"), ("mR", v "mR"), ("IRxx", v "mR" * v "kRaa" ^ 2),
      ("IRyy", v "mR" * v "kRyy" ^ 2), ("IRzz", v "mR" * v "kRaa" ^ 2),
      ("rF", v "rF"), ("mF", v "mF"), ("IFxx", v "mF" * v "kFaa" ^ 2),
      ("IFyy", v "mF" * v "kFyy" ^ 2), ("IFzz", v "mF" * v "kFaa" ^ 2)]

end BP
