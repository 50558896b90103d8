import Verif.Model.ParameterSets

/-!
# Dictionaries, parameter sets and models as objects

A parameter set keeps a reference to the dictionary it is built from, and a model keeps a reference to a parameter set.
A program can go on changing the dictionary.  Assigning another dictionary to the attribute `parameters`, or changing
`includes_rider`, is not modelled.
-/

namespace BP

/-- A parameter set object: its class, the dictionary it refers to, and `includes_rider`. (parameter_sets.py:319-323,
1077-1080, 1705-1709, 1817-1820) -/
structure SetObj where
  kind : SetKind
  dict : ℕ
  rider : Option Bool

/-- The objects of a program; references are positions.  A model is the parameter set it refers to. (parameter_sets.py:319-361,
models.py:623, 1077, 1289) -/
structure Store where
  dicts : List (Dict SVal)
  sets : List SetObj
  models : List ℕ

/-- What a program does: makes a dictionary, changes one it has a reference to (`set.parameters` is one), builds a set,
converts a set, makes a model for a parameterization. (parameter_sets.py:319-361, 1102-1147, models.py:623, 1077, 1289) -/
inductive Call where
  | dict (d : Dict SVal)
  | change (a : ℕ) (f : Dict SVal → Dict SVal)
  | build (kind : SetKind) (a : ℕ) (rider : Option Bool)
  | convert (i : ℕ) (name : String)
  | model (i : ℕ) (name : String)

/-- What can be seen of a parameter set object: its class, its parameters at the moment and `includes_rider`.
(parameter_sets.py:319-323) -/
def Store.view (st : Store) (i : ℕ) : Option PSet :=
  (st.sets[i]?).bind fun s => (st.dicts[s.dict]?).map fun d => ⟨s.kind, d, s.rider⟩

/-- parameter_sets.py:325-361, 1102-1147: the set itself, or a new one with a new dictionary. -/
noncomputable def Store.convert (b2m : Dict SVal → Except PyErr (Dict SVal)) (st : Store) (i : ℕ) (name : String) :
    Store × Except PyErr ℕ :=
  match st.view i with
  | none => (st, .error .attributeError)
  | some s =>
    if name = s.kind.name then (st, .ok i)
    else match toParameterization b2m s name with
      | .error e => (st, .error e)
      | .ok t => (⟨st.dicts ++ [t.parameters], st.sets ++ [⟨t.kind, st.dicts.length, t.rider⟩], st.models⟩,
          .ok st.sets.length)

/-- One call: the objects afterwards and the reference that is returned. (parameter_sets.py:116-119, 319-361, 1102-1147,
models.py:623, 1077, 1289).  Simplification: a reference that does not exist raises `AttributeError`. -/
noncomputable def Store.step (b2m : Dict SVal → Except PyErr (Dict SVal)) (st : Store) : Call → Store × Except PyErr ℕ
  | .dict d => (⟨st.dicts ++ [d], st.sets, st.models⟩, .ok st.dicts.length)
  | .change a f => (⟨st.dicts.modify a f, st.sets, st.models⟩, .ok a)
  | .build kind a rider =>
    match st.dicts[a]? with
    | none => (st, .error .attributeError)
    | some d =>
      match construct kind d rider with
      | .error e => (st, .error e)
      | .ok _ => (⟨st.dicts, st.sets ++ [⟨kind, a, rider⟩], st.models⟩, .ok st.sets.length)
  | .convert i name => st.convert b2m i name
  | .model i name =>
    match st.convert b2m i name with
    | (st, .error e) => (st, .error e)
    | (st, .ok j) => (⟨st.dicts, st.sets, st.models ++ [j]⟩, .ok st.models.length)

/-- The objects after some calls. (parameter_sets.py:319-361, 1102-1147, models.py:623, 1077, 1289) -/
noncomputable def Store.after (b2m : Dict SVal → Except PyErr (Dict SVal)) (st : Store) (calls : List Call) : Store :=
  calls.foldl (fun st c => (st.step b2m c).1) st

/-- The parameters that a model calculates with, before overrides: those of its set at the moment. (models.py:52) -/
def Store.modelSees (st : Store) (m : ℕ) : Option PSet := (st.models[m]?).bind st.view

end BP
