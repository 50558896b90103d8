import Verif.Model.Save
import Verif.Props.Bike

set_option linter.unusedSimpArgs false

/-!
# save_parameters with and without a rider: C113
-/

namespace BP

open Spec

/-- The text `Benchmark.txt`. -/
def Spec.benchmarkTxt : Text := ['B', 'e', 'n', 'c', 'h', 'm', 'a', 'r', 'k', '.', 't', 'x', 't']

/-- A file after an attempt to write `content`: an existing file stays when the answer is no. -/
def Spec.afterAttempt (old : Option Text) (yes : Bool) (content : Text) : Option Text :=
  match old, yes with
  | some t, false => some t
  | _, _ => some content

/-- A bicycle as the constructor makes it: no rider. -/
def Spec.Fresh {V X H : Type} (b : Bike V X H) : Prop := b.hasRider = false ∧ b.riderPar = []

theorem readFile_writeAsked (yes : Bool) (files : List (Text × Text)) (name content other : Text) :
    readFile (writeAsked yes files name content) other =
      if other = name then afterAttempt (readFile files name) yes content else readFile files other := by
  unfold writeAsked
  cases hr : readFile files name with
  | none =>
    simp only [Option.isSome_none, Bool.false_and, Bool.false_eq_true, if_false]
    rw [readFile_writeFile]; simp [afterAttempt]
  | some t =>
    cases yes with
    | true =>
      simp only [Bool.not_true, Bool.and_false, Bool.false_eq_true, if_false]
      rw [readFile_writeFile]; simp [afterAttempt]
    | false =>
      simp only [Option.isSome_some, Bool.not_false, Bool.and_true, if_true]
      split
      · rename_i h; rw [h, hr]; rfl
      · rfl

/-- Every constructed bicycle is fresh. -/
theorem init_fresh {V X H : Type} (c : Calc V X) (name : Text) (force fp : Bool) (dir dir' : BikeDir)
    (b : Bike V X H) (h : initBicycle c name force fp dir = (dir', .ok b)) : Fresh b := by
  unfold initBicycle at h
  dsimp only at h
  repeat' split at h
  all_goals simp only [Prod.mk.injEq, reduceCtorEq, and_false, Except.ok.injEq] at h
  all_goals obtain ⟨-, rfl⟩ := h
  all_goals exact ⟨rfl, rfl⟩

/-- What a bicycle with a rider looks like, whatever the calls of add_rider were. -/
theorem with_rider {V X H : Type} (w : RiderWorld V H) (b : Bike V X H) (hb : Fresh b)
    (calls : List RiderCall) (hr : (afterCalls w b calls).hasRider = true) :
    ∃ rider riderPar comb, (afterCalls w b calls).riderName = some rider ∧
      (afterCalls w b calls).riderPar = [("Benchmark", riderPar)] ∧
      (afterCalls w b calls).parameters.find? "Benchmark" = some comb := by
  rcases C38_at_most_one_rider w b hb.1 calls with ⟨h1, -⟩ | ⟨pre, c, post, -, -, h3, h4, -⟩
  · rw [h1, hb.1] at hr; cases hr
  · obtain ⟨bench, riderPar, comb, -, -, -, h5, h6, h7, -⟩ := (C38_one_call w b c).2.2 hb.1 h3
    rw [h4]
    refine ⟨c.riderName, riderPar, comb, h5, ?_, h7⟩
    have : ∃ rp, (addRider w b c).1.riderPar = Dict.set b.riderPar "Benchmark" rp := by
      revert h3
      unfold addRider
      dsimp only
      simp only [hb.1, Bool.false_eq_true, if_false]
      split
      · simp
      · split
        · simp
        · intro _; exact ⟨_, rfl⟩
    obtain ⟨rp, hrp⟩ := this
    rw [hb.2] at hrp
    have h8 : (addRider w b c).1.riderPar = [("Benchmark", rp)] := hrp
    rw [h8] at h6 ⊢
    simp [Dict.find?] at h6
    rw [h6]

/-- **C113.** After any calls of add_rider that put a rider on a new bicycle, save_parameters
tries to write two files, `<rider><bicycle>Benchmark.txt` in the rider's Parameters directory with
the rider's parameters and in its sub-directory Combined with those of bicycle and rider together;
an existing file stays when the user declines.  No other file changes, in particular none of any
bicycle or of another rider. -/
theorem C113_rider_files {V X H : Type} (w : RiderWorld V H) (b : Bike V X H) (hb : Fresh b)
    (calls : List RiderCall) (hr : (afterCalls w b calls).hasRider = true) (io : NumIO V)
    (ans : Bool → Text → Bool) (name : Text) (dir : DataDir) :
    ∃ rider riderPar comb dir', (afterCalls w b calls).riderName = some rider ∧
      (afterCalls w b calls).riderPar.find? "Benchmark" = some riderPar ∧
      (afterCalls w b calls).parameters.find? "Benchmark" = some comb ∧
      saveAll io ans name (afterCalls w b calls) .text dir = (dir', .done) ∧
      dir'.bike = dir.bike ∧ (∀ r, r ≠ rider → dir'.rider r = dir.rider r) ∧
      (∀ f, f ≠ rider ++ name ++ benchmarkTxt →
        readFile (dir'.rider rider).parameters f = readFile (dir.rider rider).parameters f ∧
        readFile (dir'.rider rider).combined f = readFile (dir.rider rider).combined f) ∧
      readFile (dir'.rider rider).parameters (rider ++ name ++ benchmarkTxt) =
        afterAttempt (readFile (dir.rider rider).parameters (rider ++ name ++ benchmarkTxt))
          (ans false (rider ++ name ++ benchmarkTxt)) (writeText io riderPar) ∧
      readFile (dir'.rider rider).combined (rider ++ name ++ benchmarkTxt) =
        afterAttempt (readFile (dir.rider rider).combined (rider ++ name ++ benchmarkTxt))
          (ans true (rider ++ name ++ benchmarkTxt)) (writeText io comb) := by
  obtain ⟨rider, riderPar, comb, h1, h2, h3⟩ := with_rider w b hb calls hr
  have hn : rider ++ name ++ "Benchmark".toList ++ ['.', 't', 'x', 't'] = rider ++ name ++ benchmarkTxt := by
    simp [benchmarkTxt]
  have hs : savedSets [("Benchmark", riderPar)] = ["Benchmark"] := by simp [savedSets, Dict.keys]
  have hsave : saveAll io ans name (afterCalls w b calls) .text dir =
      (⟨dir.bike, Function.update dir.rider rider
        ⟨writeAsked (ans false (rider ++ name ++ benchmarkTxt)) (dir.rider rider).parameters
          (rider ++ name ++ benchmarkTxt) (writeText io riderPar),
         writeAsked (ans true (rider ++ name ++ benchmarkTxt)) (dir.rider rider).combined
          (rider ++ name ++ benchmarkTxt) (writeText io comb)⟩⟩, .done) := by
    unfold saveAll
    simp only [hr, if_true, h1, h2, Option.getD_some, hs, saveRiderSets, hn, Dict.get, h3]
    simp [Dict.find?]
  refine ⟨rider, riderPar, comb, _, h1, by rw [h2]; simp [Dict.find?], h3, hsave, rfl, ?_, ?_, ?_, ?_⟩
  · intro r h; simp [Function.update, h]
  · intro f hf
    simp only [Function.update_self, readFile_writeAsked, if_neg hf, and_self]
  · simp only [Function.update_self, readFile_writeAsked, if_true]
  · simp only [Function.update_self, readFile_writeAsked, if_true]

/-- **C113.** The files of different bicycles with one rider have different names. -/
theorem C113_names_differ (rider a b : Text) (h : a ≠ b) :
    rider ++ a ++ benchmarkTxt ≠ rider ++ b ++ benchmarkTxt := by
  intro e
  rw [List.append_assoc, List.append_assoc] at e
  exact h (List.append_cancel_right (List.append_cancel_left e))

/-- **C113.** What was saved for a rider is what add_rider finds later: on any new bicycle object
with a Benchmark set `bench`, with the saved file in place, add_rider without recalculation takes
the saved parameters of the rider, every value printed and parsed once, and adds them to `bench`. -/
theorem C113_reload {V X H : Type} (w w' : RiderWorld V H) (b b' : Bike V X H) (hb : Fresh b)
    (hb' : Fresh b') (calls : List RiderCall) (ans : Bool → Text → Bool) (name : Text) (dir : DataDir)
    (rider : Text) (riderPar bench : Dict V) (back : V → V)
    (hname : (afterCalls w b calls).riderName = some rider)
    (hpar : (afterCalls w b calls).riderPar.find? "Benchmark" = some riderPar)
    (hr : (afterCalls w b calls).hasRider = true)
    (hans : readFile (dir.rider rider).parameters (rider ++ name ++ benchmarkTxt) = none ∨
      ans false (rider ++ name ++ benchmarkTxt) = true)
    (hnd : riderPar.keys.Nodup) (hk : ∀ k ∈ riderPar.keys, KeyOK k)
    (hv : ∀ k v, riderPar.find? k = some v → ReadsBackAs w'.io v (back v))
    (hfile : w'.file rider = readFile
      ((saveAll w'.io ans name (afterCalls w b calls) .text dir).1.rider rider).parameters
      (rider ++ name ++ benchmarkTxt))
    (hbench : b'.parameters.find? "Benchmark" = some bench)
    (hcomb : ∀ d : Dict V, (∀ k, d.find? k = (riderPar.find? k).map back) → ∃ c, w'.combine bench d = .ok c) :
    ∃ d comb, (∀ k, d.find? k = (riderPar.find? k).map back) ∧ w'.combine bench d = .ok comb ∧
      (addRider w' b' ⟨rider, false, false⟩).2 = .ok () ∧
      (addRider w' b' ⟨rider, false, false⟩).1.hasRider = true ∧
      (addRider w' b' ⟨rider, false, false⟩).1.riderPar.find? "Benchmark" = some d ∧
      (addRider w' b' ⟨rider, false, false⟩).1.parameters.find? "Benchmark" = some comb := by
  obtain ⟨rider', riderPar', comb', dir', e1, e2, -, e4, -, -, -, e5, -⟩ :=
    C113_rider_files w b hb calls hr w'.io ans name dir
  rw [hname] at e1
  obtain rfl := Option.some.inj e1
  rw [hpar] at e2
  obtain rfl := Option.some.inj e2
  rw [e4] at hfile
  dsimp only at hfile
  rw [e5] at hfile
  have hcontent : w'.file rider = some (writeText w'.io riderPar) := by
    rw [hfile]
    rcases hans with h | h
    · rw [h]; rfl
    · rw [h]; cases readFile (dir.rider rider).parameters (rider ++ name ++ benchmarkTxt) <;> rfl
  obtain ⟨d, hd1, -, hd2⟩ := C44_write_load w'.io riderPar back hnd hk hv
  obtain ⟨c, hc⟩ := hcomb d hd2
  have hok : addRider w' b' ⟨rider, false, false⟩ =
      ({ b' with
          riderPar := Dict.set b'.riderPar "Benchmark" d
          human := none
          parameters := Dict.set b'.parameters "Benchmark" c
          riderName := some rider
          hasRider := true }, .ok ()) := by
    unfold addRider
    simp [hb'.1, Dict.get, hbench, hcontent, hd1, hc]
  rw [hok]
  exact ⟨d, c, hd2, hc, rfl, rfl, by simp, by simp⟩

/-- **C113.** Without a rider only the bicycle's own Parameters directory changes; with all
questions answered yes it becomes what C35 describes. -/
theorem C113_without_rider {V X H : Type} (io : NumIO V) (ans : Bool → Text → Bool) (name : Text)
    (b : Bike V X H) (hb : b.hasRider = false) (dir : DataDir) :
    ∃ dir', saveAll io ans name b .text dir = (dir', .done) ∧ dir'.rider = dir.rider ∧
      (∀ n, n ≠ name → dir'.bike n = dir.bike n) ∧ (dir'.bike name).rawData = (dir.bike name).rawData ∧
      ((∀ f, ans false f = true) → (dir'.bike name).parameters =
        some (saveParameters io name b.parameters ((dir.bike name).parameters.getD []))) ∧
      ((∀ f, ans false f = false) → ∀ f t, readFile ((dir.bike name).parameters.getD []) f = some t →
        readFile ((dir'.bike name).parameters.getD []) f = some t) := by
  refine ⟨⟨Function.update dir.bike name ⟨some (saveBikeSets io (ans false) b.parameters name
      (savedSets b.parameters) ((dir.bike name).parameters.getD [])), (dir.bike name).rawData⟩, dir.rider⟩,
    by unfold saveAll; simp only [hb, Bool.false_eq_true, if_false], rfl, ?_, ?_, ?_, ?_⟩
  · intro n hn; simp [Function.update, hn]
  · simp
  · intro h
    simp only [Function.update_self, Option.some.injEq]
    unfold saveParameters
    dsimp only
    generalize (dir.bike name).parameters.getD [] = files
    generalize savedSets b.parameters = psets
    induction psets generalizing name files with
    | nil => rfl
    | cons p ps ih =>
      simp only [saveBikeSets, saveNames, List.zip_cons_cons, List.foldl_cons]
      rw [ih]
      have : ∀ n c, writeAsked (ans false n) files n c = writeFile files n c := by
        intro n c; simp [writeAsked, h]
      rw [this]
  · intro h f t
    simp only [Function.update_self, Option.getD_some]
    generalize (dir.bike name).parameters.getD [] = files
    generalize savedSets b.parameters = psets
    induction psets generalizing name files with
    | nil => exact id
    | cons p ps ih =>
      intro ht
      simp only [saveBikeSets]
      apply ih
      rw [readFile_writeAsked]
      split
      · rename_i e; subst e; rw [ht, h]; rfl
      · exact ht

/-- **C113.** The other file types write nothing: Matlab and pickle raise NotImplementedError, an
unknown one is silently ignored. -/
theorem C113_other_file_types {V X H : Type} (io : NumIO V) (ans : Bool → Text → Bool) (name : Text)
    (b : Bike V X H) (dir : DataDir) :
    saveAll io ans name b .matlab dir = (dir, .notImplemented) ∧
    saveAll io ans name b .pickle dir = (dir, .notImplemented) ∧
    saveAll io ans name b .other dir = (dir, .done) := ⟨rfl, rfl, rfl⟩

/-- **C113.** The description of a bicycle names the rider of the first call of add_rider that
succeeded, and nobody when none did. -/
theorem C113_description {V X H : Type} (w : RiderWorld V H) (b : Bike V X H) (hb : Fresh b)
    (calls : List RiderCall) (name : Text) :
    ((∀ c ∈ calls, (addRider w b c).2 ≠ .ok ()) ∧ describeBike name (afterCalls w b calls) =
      name ++ " with no one on board.".toList) ∨
    ∃ pre c post, calls = pre ++ c :: post ∧ (∀ x ∈ pre, (addRider w b x).2 ≠ .ok ()) ∧
      (addRider w b c).2 = .ok () ∧ describeBike name (afterCalls w b calls) =
        name ++ " with ".toList ++ c.riderName ++ " on board.".toList := by
  rcases C38_at_most_one_rider w b hb.1 calls with ⟨h1, h2⟩ | ⟨pre, c, post, h1, h2, h3, h4, h5⟩
  · left
    refine ⟨fun c hc => ?_, ?_⟩
    · obtain ⟨e, he⟩ := h2 c hc; rw [he]; simp
    · rw [h1]; simp [describeBike, hb.1]
  · right
    refine ⟨pre, c, post, h1, fun c hc => ?_, h3, ?_⟩
    · obtain ⟨e, he⟩ := h2 c hc; rw [he]; simp
    · obtain ⟨-, -, -, -, -, -, h6, -⟩ := (C38_one_call w b c).2.2 hb.1 h3
      rw [h4] at h5
      rw [h4]
      simp [describeBike, h5, h6]

/-- A rider world in which riding adds the rider's mass, with the number format of C44's example. -/
def exRiders : RiderWorld ℕ Unit where
  io := toyIO
  file _ := none
  configure _ _ _ _ := .ok ([("w", 3), ("c", 2)], ())
  combine b r := .ok [("w", b.getD "w" 0 + r.getD "w" 0)]

/-- A new bicycle with measurements. -/
def exFresh : Bike ℕ Unit Unit := ⟨[("Benchmark", [("w", 1)]), ("Measured", [])], none, false, none, [], none⟩

/-- What save_parameters leaves behind for the rider A on the bicycle B. -/
def exSaved : RiderDir := DataDir.rider (saveAll toyIO (fun _ _ => true) ['B']
  (afterCalls exRiders exFresh [⟨['A'], false, false⟩]) .text ⟨fun _ => ⟨none, none⟩, fun _ => ⟨[], []⟩⟩).1 ['A']

/-- The world with that file. -/
def exRiders2 : RiderWorld ℕ Unit :=
  { exRiders with file := fun r => readFile (exSaved.parameters) (r ++ ['B'] ++ benchmarkTxt) }

/-- non-vacuity of C113: a rider is put on a bicycle, saved, and found by another object. -/
example : Fresh exFresh ∧ (afterCalls exRiders exFresh [⟨['A'], false, false⟩]).hasRider = true ∧
    (afterCalls exRiders exFresh [⟨['A'], false, false⟩]).riderPar.find? "Benchmark" =
      some [("w", 3), ("c", 2)] ∧
    ∃ d comb, (∀ k, d.find? k = Dict.find? [("w", 3), ("c", 2)] k) ∧
      (addRider exRiders2 exFresh ⟨['A'], false, false⟩).1.parameters.find? "Benchmark" = some comb ∧
      exRiders.combine [("w", 1)] d = .ok comb := by
  refine ⟨⟨rfl, rfl⟩, rfl, rfl, ?_⟩
  obtain ⟨d, comb, h1, h2, -, -, -, h3⟩ := C113_reload exRiders exRiders2 exFresh exFresh ⟨rfl, rfl⟩ ⟨rfl, rfl⟩
    [⟨['A'], false, false⟩] (fun _ _ => true) ['B'] ⟨fun _ => ⟨none, none⟩, fun _ => ⟨[], []⟩⟩ ['A']
    [("w", 3), ("c", 2)] [("w", 1)] id rfl rfl rfl (Or.inr rfl) (by decide) (by
      intro k hk
      simp only [Dict.keys, List.map_cons, List.map_nil, List.mem_cons, List.not_mem_nil, or_false] at hk
      rcases hk with rfl | rfl <;> simp [KeyOK] <;> decide) (by
      intro k v hv
      simp only [Dict.find?] at hv
      split_ifs at hv <;> simp at hv <;> subst hv <;> exact ⟨by decide, rfl⟩) rfl rfl
    (fun d _ => ⟨_, rfl⟩)
  exact ⟨d, comb, fun k => by rw [h1 k]; simp, h3, h2⟩

end BP
