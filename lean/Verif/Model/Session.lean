import Verif.Model.Save

/-!
# Sessions: several Bicycle objects and one data directory

The commands of a session are the calls that read or write the data directory.  A call of them writes files one after
another; the program can be stopped between two of them and inside one.
-/

namespace BP

/-- A file below `pathToData`. (main.py:74-78, 99-112, 183-197) -/
inductive Place where
  /-- bicycles/<bike>/Parameters/<file> -/
  | par (bike file : Text)
  /-- bicycles/<bike>/RawData/<file> -/
  | raw (bike file : Text)
  /-- riders/<rider>/Parameters/<file> -/
  | rider (rider file : Text)
  /-- riders/<rider>/Parameters/Combined/<file> -/
  | both (rider file : Text)
  deriving DecidableEq

/-- The content of a file. (io.py:49, 143, 203) -/
def DataDir.look (d : DataDir) : Place → Option Text
  | .par b f => readFile ((d.bike b).parameters.getD []) f
  | .raw b f => readFile ((d.bike b).rawData.getD []) f
  | .rider r f => readFile (d.rider r).parameters f
  | .both r f => readFile (d.rider r).combined f

/-- Writing a file. (io.py:149-158, 216-219) -/
def DataDir.put (d : DataDir) (p : Place) (content : Text) : DataDir :=
  match p with
  | .par b f => ⟨Function.update d.bike b
      ⟨some (writeFile ((d.bike b).parameters.getD []) f content), (d.bike b).rawData⟩, d.rider⟩
  | .raw b f => ⟨Function.update d.bike b
      ⟨(d.bike b).parameters, some (writeFile ((d.bike b).rawData.getD []) f content)⟩, d.rider⟩
  | .rider r f => ⟨d.bike, Function.update d.rider r
      ⟨writeFile (d.rider r).parameters f content, (d.rider r).combined⟩⟩
  | .both r f => ⟨d.bike, Function.update d.rider r
      ⟨(d.rider r).parameters, writeFile (d.rider r).combined f content⟩⟩

/-- A program that uses the package: the data directory, which bicycles have a directory (main.py:159), and the Bicycle
objects that were made, with their names. (main.py:43-160) -/
structure Session (V X H : Type) where
  dir : DataDir
  isDir : Text → Bool
  objects : List (Text × Bike V X H)

/-- What the commands need from elsewhere: see `Calc` and `RiderWorld`. (main.py:43-149, 412-494) -/
structure Outside (V X H : Type) where
  lab : Calc V X
  configure : Text → Dict V → Dict V → Bool → Except PyErr (Dict V × H)
  combine : Dict V → Dict V → Except PyErr (Dict V)

/-- The calls: `Bicycle(name, …)`, `object.add_rider(…)`, `object.save_parameters(filetype)` with the answers to the
questions about overwriting.  Objects are counted in the order in which they were made. (main.py:43, 170, 412) -/
inductive Command where
  | construct (name : Text) (forceRawCalc forcePeriodCalc : Bool)
  | addRider (object : ℕ) (call : RiderCall)
  | save (object : ℕ) (filetype : FileType) (ans : Bool → Text → Bool)

/-- main.py:445-447, 462-466: the world of add_rider in a session: the file with the parameters of the rider is in the
data directory. -/
def Session.riders {V X H : Type} (o : Outside V X H) (s : Session V X H) (name : Text) : RiderWorld V H where
  io := o.lab.io
  file rider := s.dir.look
    (.rider rider (rider ++ name ++ ['B', 'e', 'n', 'c', 'h', 'm', 'a', 'r', 'k', '.', 't', 'x', 't']))
  configure := o.configure
  combine := o.combine

/-- One call: main.py:73-160 (with the check for the directory, lines 151-160), 412-494, 170-219.  An exception ends the
call; objects that could not be made are not in the list.  A call for an object that was not made is ignored. -/
def Session.run {V X H : Type} (o : Outside V X H) (s : Session V X H) : Command → Session V X H × Option PyErr
  | .construct name force fp =>
    if s.isDir name then
      match initBicycle o.lab name force fp (s.dir.bike name) with
      | (dir, .ok b) => (⟨⟨Function.update s.dir.bike name dir, s.dir.rider⟩, s.isDir, s.objects ++ [(name, b)]⟩, none)
      | (dir, .error e) => (⟨⟨Function.update s.dir.bike name dir, s.dir.rider⟩, s.isDir, s.objects⟩, some e)
    else (s, some .valueError)
  | .addRider i call =>
    match s.objects[i]? with
    | none => (s, none)
    | some (name, b) =>
      match BP.addRider (s.riders o name) b call with
      | (b', .ok ()) => (⟨s.dir, s.isDir, s.objects.set i (name, b')⟩, none)
      | (b', .error e) => (⟨s.dir, s.isDir, s.objects.set i (name, b')⟩, some e)
  | .save i filetype ans =>
    match s.objects[i]? with
    | none => (s, none)
    | some (name, b) =>
      match saveAll o.lab.io ans name b filetype s.dir with
      | (dir, .raised e) => (⟨dir, s.isDir, s.objects⟩, some e)
      | (dir, _) => (⟨dir, s.isDir, s.objects⟩, none)

/-! ## The files that a call writes, in order -/

/-- main.py:377-410 with io.py:189-219: the file that calculate_from_measured writes. -/
def measuredWrites {V X : Type} (c : Calc V X) (name : Text) (forcePeriodCalc : Bool) (dir : BikeDir) :
    List (Text × Text) :=
  match readFile (dir.rawData.getD []) (measuredName name) with
  | none => []
  | some content =>
    match loadText c.io content with
    | .error _ => []
    | .ok mp =>
      if forcePeriodCalc || checkForPeriod mp (isForkSplit mp) then
        match calcPeriodsForFiles c.io.mean (c.load (isForkSplit mp)) (matFiles (dir.rawData.getD [])) with
        | .error _ => []
        | .ok periods => [(measuredName name, writePeriods c.io content periods)]
      else []

/-- main.py:84-149: the file that the construction writes. -/
def constructWrites {V X : Type} (c : Calc V X) (name : Text) (forceRawCalc forcePeriodCalc : Bool) (dir : BikeDir) :
    List (Text × Text) :=
  match loadParameterSets c.io dir with
  | .error _ => []
  | .ok params =>
    if (forceRawCalc && dir.rawData.isSome &&
        (dir.rawData.isSome && (readFile (dir.rawData.getD []) (measuredName name)).isSome)) ||
        (!forceRawCalc && !Dict.has params "Benchmark") then measuredWrites c name forcePeriodCalc dir
    else []

/-- main.py:204-208 with io.py:142-158, without a rider. -/
def bikeWrites {V : Type} (io : NumIO V) (ans : Text → Bool) (parameters : Dict (Dict V)) :
    Text → List String → List (Text × Text) → List (Text × Text)
  | _, [], _ => []
  | fileName, pset :: psets, files =>
    let fileName := fileName ++ pset.toList ++ ['.', 't', 'x', 't']
    let content := writeText io ((Dict.find? parameters pset).getD [])
    if (readFile files fileName).isSome && !ans fileName then bikeWrites io ans parameters fileName psets files
    else (fileName, content) :: bikeWrites io ans parameters fileName psets (writeFile files fileName content)

/-- main.py:204-212 with io.py:142-158, with a rider.  The flag tells the files in Combined. -/
def riderWrites {V : Type} (io : NumIO V) (ans : Bool → Text → Bool) (riderPar parameters : Dict (Dict V)) :
    Text → List String → RiderDir → List ((Bool × Text) × Text)
  | _, [], _ => []
  | fileName, pset :: psets, d =>
    let fileName := fileName ++ pset.toList ++ ['.', 't', 'x', 't']
    let content := writeText io ((Dict.find? riderPar pset).getD [])
    let one := if (readFile d.parameters fileName).isSome && !ans false fileName then [] else [((false, fileName), content)]
    match Dict.get parameters pset with
    | .error _ => one
    | .ok par =>
      let two := if (readFile d.combined fileName).isSome && !ans true fileName then []
        else [((true, fileName), writeText io par)]
      one ++ two ++ riderWrites io ans riderPar parameters fileName psets
        ⟨writeAsked (ans false fileName) d.parameters fileName content,
          writeAsked (ans true fileName) d.combined fileName (writeText io par)⟩

/-- The files that a call writes. (main.py:73-160, 170-219, 412-494) -/
def Session.writes {V X H : Type} (o : Outside V X H) (s : Session V X H) : Command → List (Place × Text)
  | .construct name force fp =>
    if s.isDir name then
      (constructWrites o.lab name force fp (s.dir.bike name)).map fun w => (.raw name w.1, w.2)
    else []
  | .addRider _ _ => []
  | .save i filetype ans =>
    match s.objects[i]?, filetype with
    | some (name, b), .text =>
      if b.hasRider then
        let rider := b.riderName.getD []
        (riderWrites o.lab.io ans b.riderPar b.parameters (rider ++ name) (savedSets b.riderPar)
          (s.dir.rider rider)).map fun w => (if w.1.1 then .both rider w.1.2 else .rider rider w.1.2, w.2)
      else
        (bikeWrites o.lab.io (ans false) b.parameters name (savedSets b.parameters)
          ((s.dir.bike name).parameters.getD [])).map fun w => (.par name w.1, w.2)
    | _, _ => []

/-- The program is stopped during a call, when `k` files were written.  `n` is how much of the next file has reached
the disk if it was opened: opening it for writing empties it (io.py:149, 152, 216) and the text follows in pieces. -/
def DataDir.stopped (d : DataDir) (ws : List (Place × Text)) (k : ℕ) (n : Option ℕ) : DataDir :=
  let d := (ws.take k).foldl (fun d w => d.put w.1 w.2) d
  match ws[k]?, n with
  | some w, some n => d.put w.1 (w.2.take n)
  | _, _ => d

/-- What happens in a session: a call that ends, or one during which the program is stopped and begun anew, without
objects. (main.py:43-160, 170-219, 412-494) -/
inductive Event where
  | run (c : Command)
  | stop (c : Command) (k : ℕ) (n : Option ℕ)

/-- The session after an event. (main.py:43-160, 170-219, 412-494) -/
def Session.next {V X H : Type} (o : Outside V X H) (s : Session V X H) : Event → Session V X H
  | .run c => (s.run o c).1
  | .stop c k n => ⟨s.dir.stopped (s.writes o c) k n, s.isDir, []⟩

/-- The session after a history. (main.py:43-160, 170-219, 412-494) -/
def Session.after {V X H : Type} (o : Outside V X H) (s : Session V X H) (h : List Event) : Session V X H :=
  h.foldl (Session.next o) s

end BP
