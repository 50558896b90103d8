import Verif.Model.Main

/-!
# main.py: save_parameters with and without a rider, str(bicycle)

The data directory is what add_rider and Bicycle read from: one directory per bicycle, one per
rider.
-/

namespace BP

/-- `riders/<name>/Parameters`: its files, and those of its sub-directory Combined
(main.py:184-188). -/
structure RiderDir where
  parameters : List (Text × Text)
  combined : List (Text × Text)

/-- `pathToData`: `bicycles/<name>` and `riders/<name>`. (main.py:170-219) -/
structure DataDir where
  bike : Text → BikeDir
  rider : Text → RiderDir

/-- The argument `filetype`. (main.py:170-219) -/
inductive FileType where
  | text | matlab | pickle | other

/-- How the call ends. (main.py:170-219) -/
inductive SaveEnd where
  | done
  | notImplemented
  | raised (e : PyErr)

/-- io.py:142-165 (see `writeParameterFile`): an existing file is overwritten only when the
answer is yes. -/
def writeAsked (yes : Bool) (files : List (Text × Text)) (name content : Text) : List (Text × Text) :=
  if (readFile files name).isSome && !yes then files else writeFile files name content

/-- main.py:204-208 without a rider.  `ans` are the answers to the questions about overwriting
a file, by file name. -/
def saveBikeSets {V : Type} (io : NumIO V) (ans : Text → Bool) (parameters : Dict (Dict V)) :
    Text → List String → List (Text × Text) → List (Text × Text)
  | _, [], files => files
  | fileName, pset :: psets, files =>
    let fileName := fileName ++ pset.toList ++ ['.', 't', 'x', 't']
    saveBikeSets io ans parameters fileName psets
      (writeAsked (ans fileName) files fileName (writeText io ((Dict.find? parameters pset).getD [])))

/-- main.py:204-212 with a rider: the set of the rider to one directory, the set of the same
name of bicycle and rider to the other.  `ans true` are the answers about the files in Combined. -/
def saveRiderSets {V : Type} (io : NumIO V) (ans : Bool → Text → Bool)
    (riderPar parameters : Dict (Dict V)) :
    Text → List String → RiderDir → RiderDir × SaveEnd
  | _, [], d => (d, .done)
  | fileName, pset :: psets, d =>
    let fileName := fileName ++ pset.toList ++ ['.', 't', 'x', 't']
    let d1 : RiderDir := ⟨writeAsked (ans false fileName) d.parameters fileName
      (writeText io ((Dict.find? riderPar pset).getD [])), d.combined⟩
    match Dict.get parameters pset with
    | .error e => (d1, .raised e)
    | .ok par => saveRiderSets io ans riderPar parameters fileName psets
        ⟨d1.parameters, writeAsked (ans true fileName) d1.combined fileName (writeText io par)⟩

/-- main.py:170-218: the data directory and the outcome.  Simplification: that directories are
created (lines 186-187, io.py:137-140) is not visible; a bicycle with a rider always has a
`riderName`.  `ans false` are the answers about files in a Parameters directory. -/
def saveAll {V X H : Type} (io : NumIO V) (ans : Bool → Text → Bool) (name : Text) (b : Bike V X H)
    (filetype : FileType) (dir : DataDir) : DataDir × SaveEnd :=
  match filetype with
  | .matlab => (dir, .notImplemented)
  | .pickle => (dir, .notImplemented)
  | .other => (dir, .done)
  | .text =>
    if b.hasRider then
      let rider := b.riderName.getD []
      let r := saveRiderSets io ans b.riderPar b.parameters (rider ++ name) (savedSets b.riderPar)
        (dir.rider rider)
      (⟨dir.bike, Function.update dir.rider rider r.1⟩, r.2)
    else
      let old := dir.bike name
      let files := saveBikeSets io (ans false) b.parameters name (savedSets b.parameters)
        (old.parameters.getD [])
      (⟨Function.update dir.bike name ⟨some files, old.rawData⟩, dir.rider⟩, .done)

/-- main.py:162-168 -/
def describeBike {V X H : Type} (name : Text) (b : Bike V X H) : Text :=
  if b.hasRider then
    name ++ [' ', 'w', 'i', 't', 'h', ' '] ++ b.riderName.getD [] ++
      [' ', 'o', 'n', ' ', 'b', 'o', 'a', 'r', 'd', '.']
  else name ++ [' ', 'w', 'i', 't', 'h', ' ', 'n', 'o', ' ', 'o', 'n', 'e', ' ', 'o', 'n', ' ',
    'b', 'o', 'a', 'r', 'd', '.']

end BP
