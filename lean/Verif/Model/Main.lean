import Mathlib.Algebra.Order.Floor.Ring
import Mathlib.Algebra.Order.Archimedean.Real.Basic
import Mathlib.Data.Real.Sign
import Verif.Model.Inertia
import Verif.Model.IO
import Verif.Model.Period

/-!
# Model of bicycleparameters/main.py

The plotting methods are not modelled, except the choice of the y axis for the inertia
ellipses and the phase alignment of Bode plots.  Directories are lists of (file name,
content) pairs; `print` is ignored.
-/

namespace BP

open Real Matrix

/-! ## Module functions -/

/-- main.py:1729-1735: some key has 'S' as its first or second character. -/
def isForkSplit {V : Type} (mp : Dict V) : Bool :=
  (Dict.keys mp).any fun k => k.toList.take 1 = ['S'] || (k.toList.drop 1).take 1 = ['S']

/-- `x[1]` for a string. (main.py:1532-1548) -/
def secondChar (k : String) : Except PyErr Char :=
  match k.toList[1]? with
  | some c => .ok c
  | none => .error .indexError

/-- main.py:1547: second characters of the keys that start with 'm'. -/
def getPartsInParameters {V : Type} (par : Dict V) : Except PyErr (List Char) :=
  ((Dict.keys par).filter fun k => k.toList.head? = some 'm').mapM secondChar

/-! ## The Bicycle object: files and construction -/

/-- The directory of one bicycle: the sub-directories Parameters and RawData, when they
exist, as lists of (file name, content). (main.py:43-149) -/
structure BikeDir where
  parameters : Option (List (Text × Text))
  rawData : Option (List (Text × Text))

/-- Content of the file with the given name. (main.py:43-149) -/
def readFile (files : List (Text × Text)) (name : Text) : Option Text :=
  (files.find? fun f => f.1 = name).map Prod.snd

/-- Write a file: replace its content or add it to the directory. (main.py:170-219) -/
def writeFile (files : List (Text × Text)) (name content : Text) : List (Text × Text) :=
  if files.any fun f => f.1 = name then
    files.map fun f => if f.1 = name then (name, content) else f
  else files ++ [(name, content)]

/-- `<bicycleName>Measured.txt`, main.py:111, 138 and 382. -/
def measuredName (name : Text) : Text := name ++ ['M', 'e', 'a', 's', 'u', 'r', 'e', 'd', '.', 't', 'x', 't']

/-- What the construction needs from elsewhere: number formats (io.py), the key and
period of a pendulum data file (period.py:101-116) given the fork flag, and
`calculate_benchmark_from_measured`. -/
structure Calc (V X : Type) where
  io : NumIO V
  load : Bool → Text × Text → Except PyErr (String × V)
  bench : Dict V → Except PyErr (Dict V × X)

/-- main.py:89-97: one file of the Parameters directory.  Unpacking `bike, ptype` fails
with `ValueError` unless the name has exactly two words. -/
def loadParStep {V : Type} (io : NumIO V) (acc : Dict (Dict V)) (f : Text × Text) :
    Except PyErr (Dict (Dict V)) :=
  match spaceOutList (splitext f.1) with
  | [_, ptype] =>
    match loadText io f.2 with
    | .error e => .error e
    | .ok d => .ok (Dict.set acc (String.ofList ptype) d)
  | _ => .error .valueError

/-- main.py:84-97. -/
def loadParameterSets {V : Type} (io : NumIO V) (dir : BikeDir) : Except PyErr (Dict (Dict V)) :=
  (dir.parameters.getD []).foldlM (loadParStep io) []

/-- main.py:399-401: the pendulum data files in the order of their names. -/
def matFiles (files : List (Text × Text)) : List (Text × Text) :=
  (files.filter fun f => ['.', 'm', 'a', 't'].isSuffixOf f.1).insertionSort
    fun a b => String.ofList a.1 ≤ String.ofList b.1

/-- main.py:377-410: the directory, the parameter sets of the object and the result (or
exception) after the call. -/
def calculateFromMeasured {V X : Type} (c : Calc V X) (name : Text) (forcePeriodCalc : Bool)
    (dir : BikeDir) (params : Dict (Dict V)) :
    BikeDir × Dict (Dict V) × Except PyErr (Dict V × X) :=
  let raw := dir.rawData.getD []
  match readFile raw (measuredName name) with
  | none => (dir, params, .error .ioError)
  | some content =>
    match loadText c.io content with
    | .error e => (dir, params, .error e)
    | .ok mp =>
      let split := isForkSplit mp
      if forcePeriodCalc || checkForPeriod mp split then
        match calcPeriodsForFiles c.io.mean (c.load split) (matFiles raw) with
        | .error e => (dir, Dict.set params "Measured" mp, .error e)
        | .ok periods =>
          let mp' := Dict.update mp periods
          ({ dir with
              rawData := some (writeFile raw (measuredName name) (writePeriods c.io content periods)) },
            Dict.set params "Measured" mp', c.bench mp')
      else (dir, Dict.set params "Measured" mp, c.bench mp)

/-- The attributes of a Bicycle object (main.py:73-82, 128-129, 487-494). -/
structure Bike (V X H : Type) where
  parameters : Dict (Dict V)
  extras : Option X
  hasRider : Bool
  riderName : Option Text
  riderPar : Dict (Dict V)
  human : Option H

/-- main.py:73-149: the directory and the new object (or exception) afterwards.
Simplification: the directory exists (lines 151-160), the name is camel case
(line 73 warns only). -/
def initBicycle {V X H : Type} (c : Calc V X) (name : Text) (forceRawCalc forcePeriodCalc : Bool)
    (dir : BikeDir) : BikeDir × Except PyErr (Bike V X H) :=
  match loadParameterSets c.io dir with
  | .error e => (dir, .error e)
  | .ok params =>
    let bike : Dict (Dict V) → Option X → Bike V X H := fun p x => ⟨p, x, false, none, [], none⟩
    let isRawDataDir := dir.rawData.isSome
    let isMeasuredFile := isRawDataDir && (readFile (dir.rawData.getD []) (measuredName name)).isSome
    let isBenchmark := Dict.has params "Benchmark"
    let conOne := forceRawCalc && isRawDataDir && isMeasuredFile
    let conTwo := !forceRawCalc && !isBenchmark
    if conOne || conTwo then
      match calculateFromMeasured c name forcePeriodCalc dir params with
      | (dir', _, .error e) => (dir', .error e)
      | (dir', params', .ok (par, extras)) =>
        (dir', .ok (bike (Dict.set params' "Benchmark" par) (some extras)))
    else if !forceRawCalc && isBenchmark then
      match readFile (dir.rawData.getD []) (measuredName name) with
      | none => (dir, .ok (bike params none))
      | some content =>
        match loadText c.io content with
        | .error .ioError => (dir, .ok (bike params none))
        | .error e => (dir, .error e)
        | .ok mp => (dir, .ok (bike (Dict.set params "Measured" mp) none))
    else (dir, .ok (bike params none))

/-! ## save_parameters -/

/-- main.py:205-207: the file names, one per parameter set; `fileName` grows. -/
def saveNames (fileName : Text) : List String → List Text
  | [] => []
  | pset :: psets =>
    let fileName := fileName ++ pset.toList ++ ['.', 't', 'x', 't']
    fileName :: saveNames fileName psets

/-- main.py:199: the sets to save. -/
def savedSets {V : Type} (parameters : Dict (Dict V)) : List String :=
  (Dict.keys parameters).filter fun k => k ≠ "Measured"

/-- main.py:195-212 without a rider, `filetype='text'`: the Parameters directory after
the call, all questions about overwriting answered 'y'. -/
def saveParameters {V : Type} (io : NumIO V) (name : Text) (parameters : Dict (Dict V))
    (files : List (Text × Text)) : List (Text × Text) :=
  let psets := savedSets parameters
  ((saveNames name psets).zip psets).foldl
    (fun fs e => writeFile fs e.1 (writeText io ((Dict.find? parameters e.2).getD []))) files

/-! ## add_rider -/

/-- The outside world for `add_rider`: the rider's parameter file for this bicycle, the
Yeadon human calculation (rider.py:112-138) and `combine_bike_rider`. -/
structure RiderWorld (V H : Type) where
  io : NumIO V
  file : Text → Option Text
  configure : Text → Dict V → Dict V → Bool → Except PyErr (Dict V × H)
  combine : Dict V → Dict V → Except PyErr (Dict V)

/-- One call of `add_rider`. (main.py:412-494) -/
structure RiderCall where
  (riderName : Text) (reCalc draw : Bool)

/-- main.py:450-459 / 471-480 with rider.py:69-146: the rider's parameters, the human and
the combined parameters. -/
def configureRider {V X H : Type} (w : RiderWorld V H) (b : Bike V X H) (c : RiderCall)
    (bicyclePar : Dict V) : Except PyErr (Dict V × Option H × Dict V) :=
  match Dict.get b.parameters "Measured" with
  | .error e => .error e
  | .ok measuredPar =>
    match w.configure c.riderName bicyclePar measuredPar c.draw with
    | .error e => .error e
    | .ok (riderPar, human) =>
      match w.combine bicyclePar riderPar with
      | .error e => .error e
      | .ok bicycleRiderPar => .ok (riderPar, some human, bicycleRiderPar)

/-- main.py:412-494: the object and the exception, if any, after the call.  A file that
cannot be opened (`IOError`) means recalculation. -/
def addRider {V X H : Type} (w : RiderWorld V H) (b : Bike V X H) (c : RiderCall) :
    Bike V X H × Except PyErr Unit :=
  let reCalc := c.reCalc || c.draw
  if b.hasRider then (b, .ok ())
  else
    match Dict.get b.parameters "Benchmark" with
    | .error e => (b, .error e)
    | .ok bicyclePar =>
      let result : Except PyErr (Dict V × Option H × Dict V) :=
        if reCalc then configureRider w b c bicyclePar
        else
          match w.file c.riderName with
          | none => configureRider w b c bicyclePar
          | some content =>
            match loadText w.io content with
            | .error e => .error e
            | .ok riderPar =>
              match w.combine bicyclePar riderPar with
              | .error e => .error e
              | .ok bicycleRiderPar => .ok (riderPar, none, bicycleRiderPar)
      match result with
      | .error e => (b, .error e)
      | .ok (riderPar, human, bicycleRiderPar) =>
        ({ b with
            riderPar := Dict.set b.riderPar "Benchmark" riderPar
            human := human
            parameters := Dict.set b.parameters "Benchmark" bicycleRiderPar
            riderName := some c.riderName
            hasRider := true }, .ok ())

/-! ## steer_assembly_moment_of_inertia -/

/-- main.py:290-293 (296-299, 302-305): tensor, mass, x and z of one part; line 312 turns a
`KeyError` into a `ValueError`. -/
noncomputable def steerRead (par : Dict ℝ) (part : String) : Except PyErr (Mat3 × ℝ × ℝ × ℝ) :=
  match partInertiaTensor par part, Dict.require par ["m" ++ part, "x" ++ part, "z" ++ part] with
  | .ok I, .ok () => .ok (I, Dict.getD par ("m" ++ part) 0, Dict.getD par ("x" ++ part) 0,
      Dict.getD par ("z" ++ part) 0)
  | _, _ => .error .valueError

/-- main.py:288-317: the handlebar/fork part (nothing: zeros). -/
noncomputable def steerPart (par : Dict ℝ) (handlebar fork : Bool) :
    Except PyErr (Mat3 × ℝ × ℝ × ℝ) :=
  if fork && handlebar then steerRead par "H"
  else if fork then steerRead par "S"
  else if handlebar then steerRead par "G"
  else .ok (0, 0, 0, 0)

/-- main.py:239-375 (nominal values).  Division by a zero total mass is totalised. -/
noncomputable def steerAssembly (par : Dict ℝ) (handlebar fork wheel aboutSteerAxis : Bool) :
    Except PyErr Mat3 :=
  let v := fun k => Dict.getD par k 0
  match steerPart par handlebar fork with
  | .error e => .error e
  | .ok (I, m, x, z) =>
    let assembly : Except PyErr (ℝ × Vec3 × Mat3) :=
      if wheel then
        match Dict.require par ["mF", "w", "rF"] with
        | .error e => .error e
        | .ok () =>
          match partInertiaTensor par "F" with
          | .error e => .error e
          | .ok IF =>
            match Dict.require par ["lam"] with
            | .error e => .error e
            | .ok () =>
              let t := totalCom [(m, ![x, 0, z]), (v "mF", ![v "w", 0, -v "rF"])]
              let cAss := t.2
              let d : Vec3 := ![x - cAss 0, 0, z - cAss 2]
              let dF : Vec3 := ![v "w" - cAss 0, 0, -v "rF" - cAss 2]
              let iAss := parallelAxis I m d + parallelAxis IF (v "mF") dF
              .ok (t.1, cAss, rotateInertiaTensor iAss (v "lam"))
      else
        match Dict.require par ["lam"] with
        | .error e => .error e
        | .ok () => .ok (m, ![x, 0, z], rotateInertiaTensor I (v "lam"))
    match assembly with
    | .error e => .error e
    | .ok (mAss, cAss, iAssRot) =>
      if aboutSteerAxis then
        match Dict.require par ["w", "c", "lam"] with
        | .error e => .error e
        | .ok () =>
          .ok (parallelAxis iAssRot mAss ![distanceToSteerAxis (v "w") (v "c") (v "lam") cAss, 0, 0])
      else .ok iAssRot

/-! ## canonical, state_space, phase alignment -/

/-- The argument `nominal`: True, False or something else. (main.py:1034, 1101) -/
inductive Nominal where
  | yes | no | other

/-- main.py:1091-1099 and 1151-1156: `strip` is `unumpy.nominal_values`. -/
def selectNominal {A : Type} (strip : A → A) (nominal : Nominal) (a : A) : Except PyErr A :=
  match nominal with
  | .yes => .ok (strip a)
  | .no => .ok a
  | .other => .error .valueError

/-- main.py:1034-1099 on nominal values: the object's parameter sets after the call and
the matrices.  The `Benchmark` dictionary is modified by `benchmark_par_to_canonical`. -/
noncomputable def bikeCanonical (params : Dict (Dict ℝ)) (nominal : Nominal) :
    Dict (Dict ℝ) × Except PyErr Canon :=
  match Dict.get params "Benchmark" with
  | .error e => (params, .error e)
  | .ok par =>
    let (par', r) := benchmarkParToCanonical par
    (Dict.set params "Benchmark" par',
      match r with
      | .error e => .error e
      | .ok m => selectNominal id nominal m)

/-- main.py:1101-1156 on nominal values: `(A, B)`. -/
noncomputable def bikeStateSpace (params : Dict (Dict ℝ)) (speed : ℝ) (nominal : Nominal) :
    Dict (Dict ℝ) × Except PyErr (Matrix (Fin 4) (Fin 4) ℝ × Matrix (Fin 4) (Fin 2) ℝ) :=
  match bikeCanonical params .no with
  | (params', .error e) => (params', .error e)
  | (params', .ok m) =>
    match Dict.get params' "Benchmark" with
    | .error e => (params', .error e)
    | .ok par =>
      match Dict.get par "g" with
      | .error e => (params', .error e)
      | .ok g => (params', selectNominal id nominal (abA m.M m.C1 m.K0 m.K2 speed g, abB m.M))

/-- main.py:1524-1528 and plot.py:42-46: the phase curve after alignment.  `firstValue` is the first entry;
an empty curve raises `IndexError`. -/
noncomputable def alignPhase (ydata : List ℝ) : Except PyErr (List ℝ) :=
  match ydata with
  | [] => .error .indexError
  | firstValue :: _ =>
    let n : ℤ := ⌈((⌊|firstValue / 180|⌋ : ℤ) : ℝ) / 2⌉
    .ok (ydata.map fun y => y - Real.sign firstValue * n * 360)

/-! ## calculate_benchmark_from_measured -/

/-- `'Tt' + part + str(i + 1)`, main.py:1677. -/
def ttKey (part : String) (i : ℕ) : String := "Tt" ++ part ++ toString (i + 1)

/-- main.py:1595-1597: the mass centre of one part. -/
noncomputable def centreStep (par : Dict ℝ) (pl : String × List (ℝ × ℝ × ℝ)) : Except PyErr (Dict ℝ) :=
  match centerOfMass (pl.2.map fun t => (t.1, t.2.1)) with
  | .error e => .error e
  | .ok (x, z) => .ok (Dict.set (Dict.set par ("x" ++ pl.1) x) ("z" ++ pl.1) z)

/-- main.py:1595-1597: the mass centres. -/
noncomputable def setCentres (lines : Dict (List (ℝ × ℝ × ℝ))) (par : Dict ℝ) : Except PyErr (Dict ℝ) :=
  lines.foldlM centreStep par

/-- main.py:1668-1682: in-plane moments of inertia of one part.  `matInv` as in
`inertiaComponents`. -/
noncomputable def inPlaneStep (matInv : ∀ n, Matrix (Fin n) (Fin 3) ℝ → Matrix (Fin 3) (Fin n) ℝ)
    (mp : Dict ℝ) (torStiff : ℝ) (par : Dict ℝ) (pl : String × List (ℝ × ℝ × ℝ)) :
    Except PyErr (Dict ℝ) :=
  let n := pl.2.length
  match Dict.require mp ((List.range n).map (ttKey pl.1)) with
  | .error e => .error e
  | .ok () =>
    let pen : Fin n → ℝ := fun i => torInertia torStiff (Dict.getD mp (ttKey pl.1 i) 0)
    let beta : Fin n → ℝ := fun i => (pl.2[i]).2.2
    let inert := inertiaComponents (matInv n) pen beta
    .ok (Dict.set (Dict.set (Dict.set par ("I" ++ pl.1 ++ "xx") (inert 0))
      ("I" ++ pl.1 ++ "xz") (inert 1)) ("I" ++ pl.1 ++ "zz") (inert 2))

/-- main.py:1668-1682: in-plane moments of inertia of the parts. -/
noncomputable def setInPlane (matInv : ∀ n, Matrix (Fin n) (Fin 3) ℝ → Matrix (Fin 3) (Fin n) ℝ)
    (mp : Dict ℝ) (torStiff : ℝ) (lines : Dict (List (ℝ × ℝ × ℝ))) (par : Dict ℝ) :
    Except PyErr (Dict ℝ) :=
  lines.foldlM (inPlaneStep matInv mp torStiff) par

/-- main.py:1574-1589: the masses. -/
noncomputable def setMasses (mp : Dict ℝ) (split : Bool) (par : Dict ℝ) : Except PyErr (Dict ℝ) :=
  let v := fun k => Dict.getD mp k 0
  match Dict.require mp (["mB", "mF", "mR"] ++ (if split then ["mS", "mG"] else ["mH"])) with
  | .error e => .error e
  | .ok () =>
    let par := Dict.set (Dict.set (Dict.set par "mB" (v "mB")) "mF" (v "mF")) "mR" (v "mR")
    let par := if Dict.has mp "mD" then Dict.set par "mD" (v "mD" - v "mF") else par
    .ok (if split then Dict.set (Dict.set par "mS" (v "mS")) "mG" (v "mG")
      else Dict.set par "mH" (v "mH"))

/-- The two parts S and G of a split fork as bodies: main.py:1602-1605. -/
noncomputable def splitCom (par : Dict ℝ) : ℝ × Vec3 :=
  let v := fun k => Dict.getD par k 0
  totalCom [(v "mS", ![v "xS", 0, v "zS"]), (v "mG", ![v "xG", 0, v "zG"])]

/-- main.py:1599-1609. -/
noncomputable def setSplitCentre (par : Dict ℝ) : Dict ℝ :=
  let t := splitCom par
  Dict.set (Dict.set (Dict.set par "mH" t.1) "xH" (t.2 0)) "zH" (t.2 2)

/-- main.py:1611-1650: gravity and the y moments of inertia, for a part distance
`lG` computed with the handlebar reference `u1`, `u2` (0 unless split). -/
noncomputable def setYInertias (mp : Dict ℝ) (split : Bool) (u1 u2 : ℝ) (par : Dict ℝ) :
    Except PyErr (Dict ℝ) :=
  let v := fun k => Dict.getD mp k 0
  let q := fun k => Dict.getD par k 0
  match Dict.require mp (["g", "mF", "lF", "TcF1", "mR", "lR", "TcR1", "mB", "TcB1"] ++
      (if split then ["mS", "TcS1", "mG", "TcG1"] else ["mH", "TcH1"])) with
  | .error e => .error e
  | .ok () =>
    let par := Dict.set par "g" (v "g")
    let IFyy := compoundPendulumInertia (v "mF") (v "g") (v "lF") (v "TcF1")
    let par := Dict.set par "IFyy" IFyy
    let par := Dict.set par "IRyy" (compoundPendulumInertia (v "mR") (v "g") (v "lR") (v "TcR1"))
    let par := if Dict.has mp "mD" && Dict.has mp "TcD1" then
        Dict.set par "IDyy" (compoundPendulumInertia (v "mD") (v "g") (v "lF") (v "TcD1") - IFyy)
      else par
    let lB := √(q "xB" ^ 2 + (q "zB" + q "rR") ^ 2)
    let par := Dict.set par "IByy" (compoundPendulumInertia (v "mB") (v "g") lB (v "TcB1"))
    if split then
      let lS := √((q "xS" - q "w") ^ 2 + (q "zS" + q "rF") ^ 2)
      let par := Dict.set par "ISyy" (compoundPendulumInertia (v "mS") (v "g") lS (v "TcS1"))
      let lG := √((q "xG" - q "w" + u1) ^ 2 + (q "zG" + q "rF" + u2) ^ 2)
      .ok (Dict.set par "IGyy" (compoundPendulumInertia (v "mG") (v "g") lG (v "TcG1")))
    else
      let lH := √((q "xH" - q "w") ^ 2 + (q "zH" + q "rF") ^ 2)
      .ok (Dict.set par "IHyy" (compoundPendulumInertia (v "mH") (v "g") lH (v "TcH1")))

/-- main.py:1652-1655. -/
noncomputable def torsionStiffness (mp : Dict ℝ) : Except PyErr ℝ :=
  let v := fun k => Dict.getD mp k 0
  match Dict.require mp ["lP", "mP", "dP", "TtP1"] with
  | .error e => .error e
  | .ok () =>
    .ok (torsionalPendulumStiffness (tubeInertia (v "lP") (v "mP") (v "dP" / 2) 0).2.1 (v "TtP1"))

/-- main.py:1657-1663. -/
noncomputable def setWheelInertias (mp : Dict ℝ) (torStiff : ℝ) (par : Dict ℝ) :
    Except PyErr (Dict ℝ) :=
  let v := fun k => Dict.getD mp k 0
  match Dict.require mp ["TtF1", "TtR1"] with
  | .error e => .error e
  | .ok () =>
    let IFxx := torInertia torStiff (v "TtF1")
    let par := Dict.set (Dict.set par "IFxx" IFxx) "IRxx" (torInertia torStiff (v "TtR1"))
    .ok (if Dict.has mp "TtD1" then Dict.set par "IDxx" (torInertia torStiff (v "TtD1") - IFxx)
      else par)

/-- main.py:1684-1703: handlebar and fork combined to part H. -/
noncomputable def setSplitInertia (par : Dict ℝ) : Except PyErr (Dict ℝ) :=
  let q := fun k => Dict.getD par k 0
  match partInertiaTensor par "G", partInertiaTensor par "S" with
  | .ok IG, .ok IS =>
    let t := totalCom [(q "mG", ![q "xG", 0, q "zG"]), (q "mS", ![q "xS", 0, q "zS"])]
    let xH := t.2 0
    let zH := t.2 2
    let dG : Vec3 := ![q "xG" - xH, 0, q "zG" - zH]
    let dS : Vec3 := ![q "xS" - xH, 0, q "zS" - zH]
    let IH := parallelAxis IG (q "mG") dG + parallelAxis IS (q "mS") dS
    let par := Dict.set (Dict.set (Dict.set par "mH" t.1) "xH" xH) "zH" zH
    .ok (Dict.set (Dict.set (Dict.set (Dict.set par "IHxx" (IH 0 0)) "IHxz" (IH 0 2))
      "IHyy" (IH 1 1)) "IHzz" (IH 2 2))
  | .error e, _ => .error e
  | _, .error e => .error e

/-- main.py:1639-1641 and com.py:187-188: `(l1, l2)` of a split fork. -/
noncomputable def splitLengths (mp : Dict ℝ) (split : Bool) : Except PyErr (ℝ × ℝ) :=
  let v := fun k => Dict.getD mp k 0
  if split then
    match Dict.require mp ["h6", "h7", "d5", "d6", "l"] with
    | .error e => .error e
    | .ok () => calculateL1L2 (v "h6") (v "h7") (v "d5") (v "d6") (v "l")
  else .ok (0, 0)

/-- main.py:1641: `(u1, u2)`, only used when the fork is split. -/
noncomputable def splitRef (par : Dict ℝ) (split : Bool) (l1 l2 : ℝ) : Except PyErr (ℝ × ℝ) :=
  if split then fwheelToHandlebarRef (Dict.getD par "lam" 0) l1 l2 else .ok (0, 0)

/-- main.py:1551-1711: the benchmark parameters.  The slopes, intercepts and angles per
part are returned too (part of `extras`).  Simplification: of several missing keys,
which one the `KeyError` names is only modelled within a step. -/
noncomputable def calculateBenchmark (newton : (ℝ → ℝ) → ℝ → Except PyErr ℝ)
    (matInv : ∀ n, Matrix (Fin n) (Fin 3) ℝ → Matrix (Fin 3) (Fin n) ℝ) (mp : Dict ℝ) :
    Except PyErr (Dict ℝ × Dict (List (ℝ × ℝ × ℝ))) := do
  let split := isForkSplit mp
  let par ← calculateBenchmarkGeometry newton mp []
  let par ← setMasses mp split par
  let (l1, l2) ← splitLengths mp split
  let lines ← partComLines mp par split l1 l2
  let par ← setCentres lines par
  let par := if split then setSplitCentre par else par
  let (u1, u2) ← splitRef par split l1 l2
  let par ← setYInertias mp split u1 u2 par
  let torStiff ← torsionStiffness mp
  let par ← setWheelInertias mp torStiff par
  let par ← setInPlane matInv mp torStiff lines par
  let par ← if split then setSplitInertia par else .ok par
  .ok (par, lines)

/-! ## The inertia ellipses of plot_bicycle_geometry -/

/-- main.py:557-561: the row index taken for the y axis; the last row whose entries sum to
one (up to the tolerance).  `none`: no row matched and the name `yrow` is unbound (or left
over from the previous part). -/
noncomputable def ellipseYRow (C : Mat3) : Option (Fin 3) :=
  let hit := fun i : Fin 3 => |(C i 0 - 0) + (C i 1 - 1) + (C i 2 - 0)| < 1e-10
  open Classical in
  if hit 2 then some 2 else if hit 1 then some 1 else if hit 0 then some 0 else none

/-- main.py:601: where the dashed steer axis meets the ground, from the points 1 and 2 of
`fundamental_geometry_plot_data`. -/
noncomputable def steerGroundX (p1 p2 : ℝ × ℝ) : ℝ :=
  p2.1 + p2.2 * (p2.1 - p1.1) / (p1.2 - p2.2)

/-- main.py:612-624: the end points `(x, z)` drawn for a pendulum axis `(m, b)` of length
`L` next to the mass centre (z is drawn upwards). -/
noncomputable def pendulumSegment (m b xcom zcom L : ℝ) : (ℝ × ℝ) × (ℝ × ℝ) :=
  let xPoint := (projectPointOnLine (m, b) (xcom, zcom)).1
  let xPlus := L / 2 * cos (arctan m)
  ((xPoint - xPlus, -m * (xPoint - xPlus) - b), (xPoint + xPlus, -m * (xPoint + xPlus) - b))

end BP
