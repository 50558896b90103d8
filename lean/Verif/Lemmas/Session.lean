import Verif.Model.Session
import Verif.Props.Save

/-!
# Lemmas about the files that calls write
-/

namespace BP

open Spec

theorem look_put (d : DataDir) (p q : Place) (content : Text) :
    (d.put p content).look q = if q = p then some content else d.look q := by
  cases p with
  | par b f =>
    cases q with
    | par b' f' =>
      by_cases h : b' = b
      · subst h; simp [DataDir.put, DataDir.look, readFile_writeFile]
      · simp [DataDir.put, DataDir.look, h]
    | raw b' f' =>
      by_cases h : b' = b
      · subst h; simp [DataDir.put, DataDir.look]
      · simp [DataDir.put, DataDir.look, Function.update_of_ne h]
    | rider r f' => simp [DataDir.put, DataDir.look]
    | both r f' => simp [DataDir.put, DataDir.look]
  | raw b f =>
    cases q with
    | raw b' f' =>
      by_cases h : b' = b
      · subst h; simp [DataDir.put, DataDir.look, readFile_writeFile]
      · simp [DataDir.put, DataDir.look, h]
    | par b' f' =>
      by_cases h : b' = b
      · subst h; simp [DataDir.put, DataDir.look]
      · simp [DataDir.put, DataDir.look, Function.update_of_ne h]
    | rider r f' => simp [DataDir.put, DataDir.look]
    | both r f' => simp [DataDir.put, DataDir.look]
  | rider r f =>
    cases q with
    | rider r' f' =>
      by_cases h : r' = r
      · subst h; simp [DataDir.put, DataDir.look, readFile_writeFile]
      · simp [DataDir.put, DataDir.look, h]
    | both r' f' =>
      by_cases h : r' = r
      · subst h; simp [DataDir.put, DataDir.look]
      · simp [DataDir.put, DataDir.look, Function.update_of_ne h]
    | par b f' => simp [DataDir.put, DataDir.look]
    | raw b f' => simp [DataDir.put, DataDir.look]
  | both r f =>
    cases q with
    | both r' f' =>
      by_cases h : r' = r
      · subst h; simp [DataDir.put, DataDir.look, readFile_writeFile]
      · simp [DataDir.put, DataDir.look, h]
    | rider r' f' =>
      by_cases h : r' = r
      · subst h; simp [DataDir.put, DataDir.look]
      · simp [DataDir.put, DataDir.look, Function.update_of_ne h]
    | par b f' => simp [DataDir.put, DataDir.look]
    | raw b f' => simp [DataDir.put, DataDir.look]

/-- Many files written. -/
def DataDir.puts (d : DataDir) (ws : List (Place × Text)) : DataDir := ws.foldl (fun d w => d.put w.1 w.2) d

theorem puts_append (d : DataDir) (us ws : List (Place × Text)) : d.puts (us ++ ws) = (d.puts us).puts ws := by
  simp [DataDir.puts]

theorem puts_one (d : DataDir) (w : Place × Text) : d.puts [w] = d.put w.1 w.2 := rfl

theorem look_puts_other (d : DataDir) (ws : List (Place × Text)) (q : Place) (h : ∀ w ∈ ws, w.1 ≠ q) :
    (d.puts ws).look q = d.look q := by
  induction ws using List.reverseRecOn with
  | nil => rfl
  | append_singleton ws w ih =>
    rw [puts_append, puts_one, look_put, if_neg (fun e => h w (by simp) e.symm)]
    exact ih fun v hv => h v (by simp [hv])

theorem look_puts_mem (d : DataDir) (ws : List (Place × Text)) (hn : (ws.map Prod.fst).Nodup) (w : Place × Text)
    (h : w ∈ ws) : (d.puts ws).look w.1 = some w.2 := by
  obtain ⟨us, vs, rfl⟩ := List.append_of_mem h
  rw [show us ++ w :: vs = (us ++ [w]) ++ vs by simp, puts_append, look_puts_other, puts_append, puts_one, look_put,
    if_pos rfl]
  intro v hv e
  rw [List.map_append, List.map_cons, List.nodup_append, List.nodup_cons] at hn
  exact hn.2.1.1 (List.mem_map.mpr ⟨v, hv, e⟩)

theorem look_puts_some (d : DataDir) (ws : List (Place × Text)) (q : Place) (h : (d.look q).isSome) :
    ((d.puts ws).look q).isSome := by
  induction ws using List.reverseRecOn with
  | nil => exact h
  | append_singleton ws w ih =>
    rw [puts_append, puts_one, look_put]
    split
    · rfl
    · exact ih

/-- Files written in one directory. -/
theorem readFile_fold {A : Type} (ws : List A) (name content : A → Text) (files : List (Text × Text)) (f : Text)
    (d : DataDir) (at_ : Text → Place) (inj : ∀ a b, at_ a = at_ b → a = b)
    (h : ∀ f, d.look (at_ f) = readFile files f) :
    (d.puts (ws.map fun w => (at_ (name w), content w))).look (at_ f) =
      readFile (ws.foldl (fun fs w => writeFile fs (name w) (content w)) files) f := by
  induction ws using List.reverseRecOn with
  | nil => exact h f
  | append_singleton ws w ih =>
    rw [List.map_append, List.map_cons, List.map_nil, puts_append, puts_one, look_put, List.foldl_append,
      List.foldl_cons, List.foldl_nil, readFile_writeFile]
    by_cases e : f = name w
    · rw [if_pos (by rw [e]), if_pos e]
    · rw [if_neg (fun h => e (inj _ _ h)), if_neg e]; exact ih

theorem bikeWrites_facts {V : Type} (io : NumIO V) (ans : Text → Bool) (parameters : Dict (Dict V)) (fileName : Text)
    (psets : List String) (files : List (Text × Text)) :
    (∀ w ∈ bikeWrites io ans parameters fileName psets files, fileName.length < w.1.length ∧
      (ans w.1 = false → readFile files w.1 = none)) ∧
    ((bikeWrites io ans parameters fileName psets files).map Prod.fst).Nodup ∧
    saveBikeSets io ans parameters fileName psets files =
      (bikeWrites io ans parameters fileName psets files).foldl (fun fs w => writeFile fs w.1 w.2) files := by
  induction psets generalizing fileName files with
  | nil => simp [bikeWrites, saveBikeSets]
  | cons p psets ih =>
    rw [bikeWrites, saveBikeSets]
    obtain ⟨name, hname⟩ : ∃ n, n = fileName ++ p.toList ++ ['.', 't', 'x', 't'] := ⟨_, rfl⟩
    have hlen : fileName.length < name.length := by rw [hname]; simp only [List.length_append, List.length_cons]; omega
    rw [← hname]
    split
    · rename_i h
      rw [writeAsked, if_pos h]
      obtain ⟨h1, h2, h3⟩ := ih name files
      exact ⟨fun w hw => ⟨hlen.trans (h1 w hw).1, (h1 w hw).2⟩, h2, h3⟩
    · rename_i h
      rw [writeAsked, if_neg h]
      obtain ⟨h1, h2, h3⟩ := ih name (writeFile files name (writeText io ((Dict.find? parameters p).getD [])))
      refine ⟨?_, ?_, ?_⟩
      · intro w hw
        rcases List.mem_cons.mp hw with rfl | hw
        · refine ⟨hlen, fun ha => ?_⟩
          dsimp only at ha ⊢
          rw [ha] at h
          simpa using h
        · refine ⟨hlen.trans (h1 w hw).1, fun ha => ?_⟩
          have := (h1 w hw).2 ha
          rw [readFile_writeFile] at this
          split at this
          · cases this
          · exact this
      · rw [List.map_cons, List.nodup_cons]
        refine ⟨fun hm => ?_, h2⟩
        obtain ⟨w, hw, e⟩ := List.mem_map.mp hm
        have := (h1 w hw).1
        rw [e] at this
        exact absurd this (lt_irrefl _)
      · rw [h3]; rfl

/-- One file of a rider. -/
def RiderDir.put (d : RiderDir) (w : (Bool × Text) × Text) : RiderDir :=
  if w.1.1 then ⟨d.parameters, writeFile d.combined w.1.2 w.2⟩ else ⟨writeFile d.parameters w.1.2 w.2, d.combined⟩

/-- The file of a rider. -/
def RiderDir.look (d : RiderDir) (n : Bool × Text) : Option Text :=
  if n.1 then readFile d.combined n.2 else readFile d.parameters n.2

theorem rider_look_put (d : RiderDir) (w : (Bool × Text) × Text) (n : Bool × Text) :
    (d.put w).look n = if n = w.1 then some w.2 else d.look n := by
  obtain ⟨⟨b, f⟩, c⟩ := w
  obtain ⟨b', f'⟩ := n
  cases b <;> cases b' <;> simp [RiderDir.put, RiderDir.look, readFile_writeFile]

theorem riderWrites_facts {V : Type} (io : NumIO V) (ans : Bool → Text → Bool) (riderPar parameters : Dict (Dict V))
    (fileName : Text) (psets : List String) (d : RiderDir) :
    (∀ w ∈ riderWrites io ans riderPar parameters fileName psets d, fileName.length < w.1.2.length ∧
      (ans w.1.1 w.1.2 = false → d.look w.1 = none)) ∧
    ((riderWrites io ans riderPar parameters fileName psets d).map Prod.fst).Nodup ∧
    (saveRiderSets io ans riderPar parameters fileName psets d).1 =
      (riderWrites io ans riderPar parameters fileName psets d).foldl RiderDir.put d := by
  induction psets generalizing fileName d with
  | nil => simp [riderWrites, saveRiderSets]
  | cons p psets ih =>
    rw [riderWrites, saveRiderSets]
    dsimp only
    obtain ⟨name, hname⟩ : ∃ n, n = fileName ++ p.toList ++ ['.', 't', 'x', 't'] := ⟨_, rfl⟩
    have hlen : fileName.length < name.length := by rw [hname]; simp only [List.length_append, List.length_cons]; omega
    rw [← hname]
    obtain ⟨one, h1⟩ : ∃ one, one = if ((readFile d.parameters name).isSome && !ans false name) = true then []
      else [((false, name), writeText io ((Dict.find? riderPar p).getD []))] := ⟨_, rfl⟩
    rw [← h1]
    have o1 : ∀ w ∈ one, w.1 = (false, name) ∧ (ans false name = false → d.look (false, name) = none) := by
      intro w hw
      rw [h1] at hw
      split at hw
      · cases hw
      · rename_i h
        rw [List.mem_singleton] at hw
        rw [hw]
        refine ⟨rfl, fun ha => ?_⟩
        rw [ha] at h
        simpa [RiderDir.look] using h
    have o2 : one.foldl RiderDir.put d =
        ⟨writeAsked (ans false name) d.parameters name (writeText io ((Dict.find? riderPar p).getD [])), d.combined⟩ := by
      rw [h1, writeAsked]
      split
      · rfl
      · rfl
    have o3 : one.length ≤ 1 := by rw [h1]; split <;> simp
    have single : ∀ {l : List ((Bool × Text) × Text)}, l.length ≤ 1 → (l.map Prod.fst).Nodup := by
      intro l hl
      match l, hl with
      | [], _ => simp
      | [_], _ => simp
    cases hget : Dict.get parameters p with
    | error e =>
      dsimp only
      refine ⟨fun w hw => ?_, single o3, o2.symm⟩
      obtain ⟨e1, e2⟩ := o1 w hw
      rw [e1]
      exact ⟨hlen, e2⟩
    | ok par =>
      dsimp only
      obtain ⟨two, h2⟩ : ∃ two, two = if ((readFile d.combined name).isSome && !ans true name) = true then []
        else [((true, name), writeText io par)] := ⟨_, rfl⟩
      rw [← h2]
      have t1 : ∀ w ∈ two, w.1 = (true, name) ∧ (ans true name = false → d.look (true, name) = none) := by
        intro w hw
        rw [h2] at hw
        split at hw
        · cases hw
        · rename_i h
          rw [List.mem_singleton] at hw
          rw [hw]
          refine ⟨rfl, fun ha => ?_⟩
          rw [ha] at h
          simpa [RiderDir.look] using h
      have t3 : two.length ≤ 1 := by rw [h2]; split <;> simp
      obtain ⟨D, hD⟩ : ∃ D : RiderDir, D = ⟨writeAsked (ans false name) d.parameters name
          (writeText io ((Dict.find? riderPar p).getD [])),
          writeAsked (ans true name) d.combined name (writeText io par)⟩ := ⟨_, rfl⟩
      have t2 : (one ++ two).foldl RiderDir.put d = D := by
        rw [List.foldl_append, o2, h2, hD]
        obtain ⟨P, hP⟩ : ∃ P, P = writeAsked (ans false name) d.parameters name
          (writeText io ((Dict.find? riderPar p).getD [])) := ⟨_, rfl⟩
        rw [← hP, writeAsked]
        split
        · rfl
        · rfl
      rw [← hD]
      obtain ⟨i1, i2, i3⟩ := ih name D
      refine ⟨?_, ?_, ?_⟩
      · intro w hw
        rcases List.mem_append.mp hw with hw | hw
        · rcases List.mem_append.mp hw with hw | hw
          · obtain ⟨e1, e2⟩ := o1 w hw
            rw [e1]; exact ⟨hlen, e2⟩
          · obtain ⟨e1, e2⟩ := t1 w hw
            rw [e1]; exact ⟨hlen, e2⟩
        · refine ⟨hlen.trans (i1 w hw).1, fun ha => ?_⟩
          have h := (i1 w hw).2 ha
          have ne : w.1.2 ≠ name := fun e => by
            have := (i1 w hw).1
            rw [e] at this
            exact absurd this (lt_irrefl _)
          rw [← t2] at h
          have keep : ∀ (l : List ((Bool × Text) × Text)) (d : RiderDir), (∀ v ∈ l, v.1.2 = name) →
              (l.foldl RiderDir.put d).look w.1 = d.look w.1 := by
            intro l
            induction l with
            | nil => intro d _; rfl
            | cons v l ih =>
              intro d hv
              rw [List.foldl_cons, ih _ fun u hu => hv u (List.mem_cons_of_mem _ hu), rider_look_put, if_neg]
              intro e
              exact ne ((congrArg Prod.snd e).trans (hv v List.mem_cons_self))
          rwa [keep] at h
          intro v hv
          rcases List.mem_append.mp hv with hv | hv
          · rw [(o1 v hv).1]
          · rw [(t1 v hv).1]
      · rw [List.map_append, List.map_append, List.nodup_append, List.nodup_append]
        refine ⟨⟨single o3, single t3, ?_⟩, i2, ?_⟩
        · intro a ha b hb e
          obtain ⟨v, hv, rfl⟩ := List.mem_map.mp ha
          obtain ⟨u, hu, rfl⟩ := List.mem_map.mp hb
          rw [(o1 v hv).1, (t1 u hu).1] at e
          cases e
        · intro a ha b hb e
          obtain ⟨u, hu, rfl⟩ := List.mem_map.mp hb
          have hn : a.2 = name := by
            rcases List.mem_append.mp ha with ha | ha
            · obtain ⟨v, hv, rfl⟩ := List.mem_map.mp ha
              rw [(o1 v hv).1]
            · obtain ⟨v, hv, rfl⟩ := List.mem_map.mp ha
              rw [(t1 v hv).1]
          have := (i1 u hu).1
          rw [← e, hn] at this
          exact absurd this (lt_irrefl _)
      · rw [i3, List.foldl_append, t2]

/-- The construction writes the file with the measurements only. -/
theorem construct_dir {V X H : Type} (c : Calc V X) (name : Text) (force fp : Bool) (dir : BikeDir) :
    (constructWrites c name force fp dir = [] ∧ (initBicycle (H := H) c name force fp dir).1 = dir) ∨
    ∃ content periods mp, readFile (dir.rawData.getD []) (measuredName name) = some content ∧
      loadText c.io content = .ok mp ∧
      calcPeriodsForFiles c.io.mean (c.load (isForkSplit mp)) (matFiles (dir.rawData.getD [])) = .ok periods ∧
      constructWrites c name force fp dir = [(measuredName name, writePeriods c.io content periods)] ∧
      (initBicycle (H := H) c name force fp dir).1 = ⟨dir.parameters,
        some (writeFile (dir.rawData.getD []) (measuredName name) (writePeriods c.io content periods))⟩ := by
  unfold constructWrites initBicycle
  cases hl : loadParameterSets c.io dir with
  | error e => exact Or.inl ⟨rfl, rfl⟩
  | ok params =>
    dsimp only
    split
    · unfold measuredWrites calculateFromMeasured
      dsimp only
      cases hc : readFile (dir.rawData.getD []) (measuredName name) with
      | none => exact Or.inl ⟨rfl, rfl⟩
      | some content =>
        dsimp only
        cases hm : loadText c.io content with
        | error e => exact Or.inl ⟨rfl, rfl⟩
        | ok mp =>
          dsimp only
          split
          · cases hp : calcPeriodsForFiles c.io.mean (c.load (isForkSplit mp)) (matFiles (dir.rawData.getD [])) with
            | error e => exact Or.inl ⟨rfl, rfl⟩
            | ok periods =>
              refine Or.inr ⟨content, periods, mp, rfl, hm, hp, rfl, ?_⟩
              dsimp only
              cases c.bench (Dict.update mp periods) <;> rfl
          · refine Or.inl ⟨rfl, ?_⟩
            cases c.bench mp <;> rfl
    · refine Or.inl ⟨rfl, ?_⟩
      split
      · cases hc : readFile (dir.rawData.getD []) (measuredName name) with
        | none => rfl
        | some content =>
          dsimp only
          cases hm : loadText c.io content with
          | error e => cases e <;> rfl
          | ok mp => rfl
      · rfl

end BP
