import Verif.Model.App
import Verif.Model.Main

/-!
# Choosing a bicycle in the web app
-/

namespace BP

/-- app.py:247-251, `new_par`: the directory of the bicycle and the result (or exception) after the call.  Simplification:
the name is one of those that are offered, so the directory exists. -/
def newPar {X : Type} (c : Calc PVal X) (name : Text) (dir : BikeDir) : BikeDir × Except PyErr (Dict PVal) :=
  match initBicycle (H := Unit) c name false false dir with
  | (dir', .error e) => (dir', .error e)
  | (dir', .ok b) => (dir', (b.parameters.get "Benchmark").bind removeUncertainties)

/-- The numbers of a dictionary.  Simplification: a value that is no number has no cell in a table; loading a file
gives none. (app.py:263-323) -/
def numbers (d : Dict PVal) : Dict ℝ :=
  d.filterMap fun e => match e.2 with
    | .num x => some (e.1, x)
    | _ => none

/-- app.py:261-325, `populate_wheel_data`: each of the three tables is filled from a Bicycle of its own. -/
noncomputable def populateChosen {X : Type} (c : Calc PVal X) (name : Text) (dir : BikeDir) :
    BikeDir × Except PyErr (List Row2 × List Row2 × List Row1) :=
  match newPar c name dir with
  | (dir, .error e) => (dir, .error e)
  | (dir, .ok wheelPure) =>
    match newPar c name dir with
    | (dir, .error e) => (dir, .error e)
    | (dir, .ok framePure) =>
      match newPar c name dir with
      | (dir, .error e) => (dir, .error e)
      | (dir, .ok genPure) =>
        (dir, (generalTable (numbers genPure)).map fun g => (wheelTable (numbers wheelPure), frameTable (numbers framePure), g))

end BP
