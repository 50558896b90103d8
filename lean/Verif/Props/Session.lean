import Verif.Lemmas.Session

/-!
# C136: histories of sessions, with stops at any point
-/

set_option linter.unusedSimpArgs false

namespace BP

open Spec

variable {V X H : Type}

/-! ## The effects of one call -/

/-- What a call leaves in the data directory are the files that it writes. -/
theorem run_look (o : Outside V X H) (s : Session V X H) (c : Command) (q : Place) :
    (s.run o c).1.dir.look q = (s.dir.puts (s.writes o c)).look q := by
  cases c with
  | construct name force fp =>
    unfold Session.run Session.writes
    dsimp only
    split
    · have hd : (s.dir.puts ((constructWrites o.lab name force fp (s.dir.bike name)).map
          fun w => (Place.raw name w.1, w.2))).look q =
          (DataDir.mk (Function.update s.dir.bike name
            (initBicycle (H := H) o.lab name force fp (s.dir.bike name)).1) s.dir.rider).look q := by
        rcases construct_dir (H := H) o.lab name force fp (s.dir.bike name) with ⟨h1, h2⟩ | ⟨t, ps, mp, -, -, -, h1, h2⟩
        · rw [h1, h2, Function.update_eq_self]; rfl
        · rw [h1, h2]; rfl
      rw [hd]
      split <;> rename_i h <;> rw [h]
    · rfl
  | addRider i call =>
    unfold Session.run Session.writes
    dsimp only
    cases s.objects[i]? with
    | none => rfl
    | some nb =>
      dsimp only
      split <;> rfl
  | save i filetype ans =>
    unfold Session.run Session.writes
    dsimp only
    cases s.objects[i]? with
    | none => rfl
    | some nb =>
      obtain ⟨name, b⟩ := nb
      dsimp only
      have key : (saveAll o.lab.io ans name b filetype s.dir).1.look q = (s.dir.puts (match filetype with
          | .text =>
            if b.hasRider then
              (riderWrites o.lab.io ans b.riderPar b.parameters (b.riderName.getD [] ++ name) (savedSets b.riderPar)
                (s.dir.rider (b.riderName.getD []))).map fun w =>
                  (if w.1.1 then Place.both (b.riderName.getD []) w.1.2 else Place.rider (b.riderName.getD []) w.1.2, w.2)
            else
              (bikeWrites o.lab.io (ans false) b.parameters name (savedSets b.parameters)
                ((s.dir.bike name).parameters.getD [])).map fun w => (Place.par name w.1, w.2)
          | _ => [])).look q := by
        cases filetype with
        | matlab => rfl
        | pickle => rfl
        | other => rfl
        | text =>
          dsimp only [saveAll]
          split
          · obtain ⟨r, hr⟩ : ∃ r, r = b.riderName.getD [] := ⟨_, rfl⟩
            rw [← hr]
            have e := (riderWrites_facts o.lab.io ans b.riderPar b.parameters (r ++ name) (savedSets b.riderPar)
              (s.dir.rider r)).2.2
            rw [e]
            generalize riderWrites o.lab.io ans b.riderPar b.parameters (r ++ name) (savedSets b.riderPar)
              (s.dir.rider r) = ws
            clear e
            dsimp only
            induction ws using List.reverseRecOn with
            | nil => rw [List.foldl_nil, Function.update_eq_self]; rfl
            | append_singleton ws w ih =>
              rw [List.map_append, puts_append, List.map_cons, List.map_nil, puts_one, look_put, List.foldl_append,
                List.foldl_cons, List.foldl_nil, ← ih]
              obtain ⟨⟨fl, f⟩, c⟩ := w
              cases q with
              | par b' f' => cases fl <;> simp [DataDir.look]
              | raw b' f' => cases fl <;> simp [DataDir.look]
              | rider r' f' =>
                by_cases h : r' = r
                · subst h
                  cases fl <;> simp [DataDir.look, RiderDir.put, readFile_writeFile]
                · cases fl <;> simp [DataDir.look, Function.update_of_ne h, h]
              | both r' f' =>
                by_cases h : r' = r
                · subst h
                  cases fl <;> simp [DataDir.look, RiderDir.put, readFile_writeFile]
                · cases fl <;> simp [DataDir.look, Function.update_of_ne h, h]
          · have e := (bikeWrites_facts o.lab.io (ans false) b.parameters name (savedSets b.parameters)
              ((s.dir.bike name).parameters.getD [])).2.2
            rw [e]
            generalize bikeWrites o.lab.io (ans false) b.parameters name (savedSets b.parameters)
              ((s.dir.bike name).parameters.getD []) = ws
            clear e
            dsimp only
            induction ws using List.reverseRecOn with
            | nil =>
              rw [List.foldl_nil]
              cases q with
              | par b' f' =>
                by_cases h : b' = name
                · subst h; simp [DataDir.look, DataDir.puts]
                · simp [DataDir.look, DataDir.puts, Function.update_of_ne h]
              | raw b' f' =>
                by_cases h : b' = name
                · subst h; simp [DataDir.look, DataDir.puts]
                · simp [DataDir.look, DataDir.puts, Function.update_of_ne h]
              | rider r' f' => rfl
              | both r' f' => rfl
            | append_singleton ws w ih =>
              rw [List.map_append, puts_append, List.map_cons, List.map_nil, puts_one, look_put, List.foldl_append,
                List.foldl_cons, List.foldl_nil, ← ih]
              cases q with
              | raw b' f' =>
                by_cases h : b' = name
                · subst h; simp [DataDir.look]
                · simp [DataDir.look, Function.update_of_ne h]
              | par b' f' =>
                by_cases h : b' = name
                · subst h; simp [DataDir.look, readFile_writeFile]
                · simp [DataDir.look, Function.update_of_ne h, h]
              | rider r' f' => simp [DataDir.look]
              | both r' f' => simp [DataDir.look]
      refine Eq.trans ?_ (key.trans ?_)
      · split <;> rename_i h <;> rw [h]
      · refine congrArg (fun ws => (s.dir.puts ws).look q) ?_
        cases filetype <;> rfl

theorem writes_nodup (o : Outside V X H) (s : Session V X H) (c : Command) : ((s.writes o c).map Prod.fst).Nodup := by
  cases c with
  | construct name force fp =>
    unfold Session.writes
    dsimp only
    split
    · rcases construct_dir (H := H) o.lab name force fp (s.dir.bike name) with ⟨h1, -⟩ | ⟨t, ps, mp, -, -, -, h1, -⟩ <;>
        rw [h1] <;> simp
    · simp
  | addRider i call => simp [Session.writes]
  | save i filetype ans =>
    unfold Session.writes
    dsimp only
    cases s.objects[i]? with
    | none => simp
    | some nb =>
      obtain ⟨name, b⟩ := nb
      cases filetype with
      | matlab => simp
      | pickle => simp
      | other => simp
      | text =>
        dsimp only
        split
        · have h := (riderWrites_facts o.lab.io ans b.riderPar b.parameters (b.riderName.getD [] ++ name)
            (savedSets b.riderPar) (s.dir.rider (b.riderName.getD []))).2.1
          rw [List.map_map]
          rw [show (Prod.fst ∘ fun w : (Bool × Text) × Text => (if w.1.1 = true then Place.both (b.riderName.getD []) w.1.2
            else Place.rider (b.riderName.getD []) w.1.2, w.2)) = (fun n : Bool × Text => if n.1 = true then
            Place.both (b.riderName.getD []) n.2 else Place.rider (b.riderName.getD []) n.2) ∘ Prod.fst from rfl,
            ← List.map_map]
          refine h.map ?_
          rintro ⟨fl, f⟩ ⟨fl', f'⟩ e
          cases fl <;> cases fl' <;> simp at e ⊢ <;> exact e
        · have h := (bikeWrites_facts o.lab.io (ans false) b.parameters name (savedSets b.parameters)
            ((s.dir.bike name).parameters.getD [])).2.1
          rw [List.map_map, show (Prod.fst ∘ fun w : Text × Text => (Place.par name w.1, w.2)) =
            (fun n => Place.par name n) ∘ Prod.fst from rfl, ← List.map_map]
          refine h.map ?_
          intro f f' e
          injection e

/-- Which files a call can write. -/
theorem writes_place (o : Outside V X H) (s : Session V X H) (c : Command) (w : Place × Text) (hw : w ∈ s.writes o c) :
    match c with
    | .construct name _ _ => w.1 = .raw name (measuredName name)
    | .addRider _ _ => False
    | .save i _ ans => ∃ name b, s.objects[i]? = some (name, b) ∧ ((∃ f, w.1 = .par name f ∧ b.hasRider = false ∧
        (ans false f = false → s.dir.look w.1 = none)) ∨ (∃ r f, b.hasRider = true ∧ b.riderName.getD [] = r ∧
        ((w.1 = .rider r f ∧ (ans false f = false → s.dir.look w.1 = none)) ∨
          (w.1 = .both r f ∧ (ans true f = false → s.dir.look w.1 = none))))) := by
  cases c with
  | construct name force fp =>
    unfold Session.writes at hw
    dsimp only at hw ⊢
    split at hw
    · rcases construct_dir (H := H) o.lab name force fp (s.dir.bike name) with ⟨h1, -⟩ | ⟨t, ps, mp, -, -, -, h1, -⟩ <;>
        rw [h1] at hw <;> simp at hw
      rw [hw]
    · simp at hw
  | addRider i call => simp [Session.writes] at hw
  | save i filetype ans =>
    unfold Session.writes at hw
    dsimp only at hw ⊢
    cases hi : s.objects[i]? with
    | none => rw [hi] at hw; simp at hw
    | some nb =>
      obtain ⟨name, b⟩ := nb
      rw [hi] at hw
      cases filetype with
      | matlab => simp at hw
      | pickle => simp at hw
      | other => simp at hw
      | text =>
        dsimp only at hw
        refine ⟨name, b, rfl, ?_⟩
        split at hw
        · rename_i hb
          obtain ⟨v, hv, rfl⟩ := List.mem_map.mp hw
          have h := ((riderWrites_facts o.lab.io ans b.riderPar b.parameters (b.riderName.getD [] ++ name)
            (savedSets b.riderPar) (s.dir.rider (b.riderName.getD []))).1 v hv).2
          refine Or.inr ⟨_, v.1.2, hb, rfl, ?_⟩
          obtain ⟨⟨fl, f⟩, c⟩ := v
          cases fl
          · exact Or.inl ⟨rfl, h⟩
          · exact Or.inr ⟨rfl, h⟩
        · rename_i hb
          obtain ⟨v, hv, rfl⟩ := List.mem_map.mp hw
          have h := ((bikeWrites_facts o.lab.io (ans false) b.parameters name (savedSets b.parameters)
            ((s.dir.bike name).parameters.getD [])).1 v hv).2
          exact Or.inl ⟨v.1, rfl, by simpa using hb, h⟩

/-! ## Stops -/

theorem stopped_form (d : DataDir) (ws : List (Place × Text)) (k : ℕ) (n : Option ℕ) :
    ∃ us, d.stopped ws k n = d.puts us ∧ (∀ u ∈ us, ∃ w ∈ ws, u.1 = w.1) := by
  unfold DataDir.stopped
  dsimp only
  have base : ∃ us, (ws.take k).foldl (fun d w => d.put w.1 w.2) d = d.puts us ∧ (∀ u ∈ us, ∃ w ∈ ws, u.1 = w.1) :=
    ⟨ws.take k, rfl, fun u hu => ⟨u, List.mem_of_mem_take hu, rfl⟩⟩
  cases hk : ws[k]? with
  | none => exact base
  | some w =>
    cases n with
    | none => exact base
    | some n =>
      refine ⟨ws.take k ++ [(w.1, w.2.take n)], ?_, ?_⟩
      · rw [puts_append]; rfl
      · intro u hu
        rcases List.mem_append.mp hu with hu | hu
        · exact ⟨u, List.mem_of_mem_take hu, rfl⟩
        · rw [List.mem_singleton] at hu
          exact ⟨w, List.mem_of_getElem? hk, by rw [hu]⟩

/-- The files after an event are old, or among those that the call writes. -/
theorem next_form (o : Outside V X H) (s : Session V X H) (e : Event) :
    ∃ c us, (e = .run c ∨ ∃ k n, e = .stop c k n) ∧ (∀ q, (s.next o e).dir.look q = (s.dir.puts us).look q) ∧
      ∀ u ∈ us, ∃ w ∈ s.writes o c, u.1 = w.1 := by
  cases e with
  | run c => exact ⟨c, s.writes o c, Or.inl rfl, run_look o s c, fun u hu => ⟨u, hu, rfl⟩⟩
  | stop c k n =>
    obtain ⟨us, h1, h2⟩ := stopped_form s.dir (s.writes o c) k n
    exact ⟨c, us, Or.inr ⟨k, n, rfl⟩, fun q => by rw [← h1]; rfl, h2⟩

/-- **C136.** Damage of a stop: when the program is stopped during a call, at any point, every file but one is as it was
before or as the call leaves it, and the one that is left may be cut off. -/
theorem C136_damage (o : Outside V X H) (s : Session V X H) (c : Command) (k : ℕ) (n : Option ℕ) :
    ∃ p, (∀ q, q ≠ p → (s.next o (.stop c k n)).dir.look q = s.dir.look q ∨
      (s.next o (.stop c k n)).dir.look q = (s.next o (.run c)).dir.look q) ∧
      ((s.next o (.stop c k n)).dir.look p = s.dir.look p ∨ ∃ cut content,
        (s.next o (.stop c k n)).dir.look p = some cut ∧ (s.next o (.run c)).dir.look p = some content ∧
        cut <+: content) := by
  have hn := writes_nodup o s c
  have hr : ∀ q, (s.next o (.run c)).dir.look q = (s.dir.puts (s.writes o c)).look q := run_look o s c
  have hs : (s.next o (.stop c k n)).dir = s.dir.stopped (s.writes o c) k n := rfl
  simp only [hr, hs]
  generalize s.writes o c = ws at hn
  generalize s.dir = d
  have part : ∀ q, (d.puts (ws.take k)).look q = d.look q ∨ (d.puts (ws.take k)).look q = (d.puts ws).look q := by
    intro q
    by_cases h : ∃ w ∈ ws.take k, w.1 = q
    · obtain ⟨w, hw, rfl⟩ := h
      right
      rw [look_puts_mem d ws hn w (List.mem_of_mem_take hw), look_puts_mem d (ws.take k) _ w hw]
      exact hn.sublist ((List.take_sublist k ws).map _)
    · left
      exact look_puts_other d _ q fun w hw e => h ⟨w, hw, e⟩
  have whole : ∃ p, (∀ q, q ≠ p → (d.puts (ws.take k)).look q = d.look q ∨
      (d.puts (ws.take k)).look q = (d.puts ws).look q) ∧
      ((d.puts (ws.take k)).look p = d.look p ∨ ∃ cut content, (d.puts (ws.take k)).look p = some cut ∧
        (d.puts ws).look p = some content ∧ cut <+: content) := by
    refine ⟨.par [] [], fun q _ => part q, ?_⟩
    rcases part (.par [] []) with h | h
    · exact Or.inl h
    · cases hc : (d.puts ws).look (.par [] []) with
      | some content => exact Or.inr ⟨content, content, h.trans hc, rfl, List.prefix_rfl⟩
      | none =>
        left
        rw [h, hc]
        cases hd : d.look (.par [] []) with
        | none => rfl
        | some t =>
          have := look_puts_some d ws (.par [] []) (by rw [hd]; rfl)
          rw [hc] at this
          cases this
  unfold DataDir.stopped
  dsimp only
  cases hk : ws[k]? with
  | none => exact whole
  | some w =>
    cases n with
    | none => exact whole
    | some m =>
      dsimp only
      refine ⟨w.1, fun q hq => ?_, Or.inr ⟨w.2.take m, w.2, ?_, ?_, List.take_prefix m w.2⟩⟩
      · rw [look_put, if_neg hq]
        exact part q
      · rw [look_put, if_pos rfl]
      · exact look_puts_mem d ws hn w (List.mem_of_getElem? hk)

/-! ## Histories -/

/-- A property of one file that every event keeps holds after every history. -/
theorem after_induction (o : Outside V X H) (P : Session V X H → Prop) (h : List Event)
    (step : ∀ s, ∀ e ∈ h, P s → P (s.next o e)) (s : Session V X H) (hs : P s) : P (s.after o h) := by
  unfold Session.after
  induction h generalizing s with
  | nil => exact hs
  | cons e h ih =>
    exact ih (fun s e' he' => step s e' (List.mem_cons_of_mem _ he')) (s.next o e) (step s e List.mem_cons_self hs)

/-- **C136.** The pendulum data: no history changes a file of a RawData directory other than the file with the
measurements of its own bicycle. -/
theorem C136_pendulum_data (o : Outside V X H) (s : Session V X H) (h : List Event) (bike file : Text)
    (hf : file ≠ bike ++ "Measured.txt".toList) :
    (s.after o h).dir.look (.raw bike file) = s.dir.look (.raw bike file) := by
  refine after_induction o (fun s' => s'.dir.look (.raw bike file) = s.dir.look (.raw bike file)) h ?_ s rfl
  intro s' e _ hs'
  obtain ⟨c, us, -, h2, h3⟩ := next_form o s' e
  rw [h2, look_puts_other, hs']
  intro u hu e
  obtain ⟨w, hw, e'⟩ := h3 u hu
  have hp := writes_place o s' c w hw
  rw [← e', e] at hp
  cases c with
  | construct name _ _ =>
    dsimp only at hp
    injection hp with h1 h2
    exact hf (by rw [h2, ← h1]; rfl)
  | addRider _ _ => exact hp
  | save i _ ans =>
    obtain ⟨name, b, -, ⟨f, hp, -⟩ | ⟨r, f, -, -, ⟨hp, -⟩ | ⟨hp, -⟩⟩⟩ := hp <;> cases hp

/-- **C136.** No history makes a file disappear. -/
theorem C136_files_stay (o : Outside V X H) (s : Session V X H) (h : List Event) (q : Place)
    (hq : (s.dir.look q).isSome) : ((s.after o h).dir.look q).isSome := by
  refine after_induction o (fun s' => (s'.dir.look q).isSome) h ?_ s hq
  intro s' e _ hs'
  obtain ⟨c, us, -, h2, -⟩ := next_form o s' e
  rw [h2]
  exact look_puts_some _ _ _ hs'

/-- The command of an event. -/
def Event.command : Event → Command
  | .run c => c
  | .stop c _ _ => c

/-- **C136.** Who declines to overwrite files keeps them: if all questions are answered with no, every file with
parameters keeps its content, at every point where the program can be stopped. -/
theorem C136_declined (o : Outside V X H) (s : Session V X H) (h : List Event)
    (hno : ∀ e ∈ h, ∀ i filetype ans, e.command = .save i filetype ans → ∀ comb f, ans comb f = false)
    (q : Place) (hq : ∀ bike file, q ≠ .raw bike file) (content : Text) (hc : s.dir.look q = some content) :
    (s.after o h).dir.look q = some content := by
  refine after_induction o (fun s' => s'.dir.look q = some content) h ?_ s hc
  intro s' e he hs'
  obtain ⟨c, us, h1, h2, h3⟩ := next_form o s' e
  have hcmd : e.command = c := by rcases h1 with rfl | ⟨k, n, rfl⟩ <;> rfl
  rw [h2, look_puts_other, hs']
  intro u hu e''
  obtain ⟨w, hw, e'⟩ := h3 u hu
  have hp := writes_place o s' c w hw
  rw [← e', e''] at hp
  cases c with
  | construct name _ _ => exact hq _ _ hp
  | addRider _ _ => exact hp
  | save i filetype ans =>
    obtain ⟨name, b, -, ⟨f, -, -, hp⟩ | ⟨r, f, -, -, ⟨-, hp⟩ | ⟨-, hp⟩⟩⟩ := hp <;>
      rw [hp (hno e he i filetype ans hcmd _ _)] at hs' <;> cases hs'

/-- **C136.** Bicycles that a history does not touch: a bicycle that is neither constructed in a history nor an object of
the session before keeps all its files. -/
theorem C136_other_bicycles (o : Outside V X H) (s : Session V X H) (h : List Event) (bike : Text)
    (h1 : ∀ e ∈ h, ∀ force fp, e.command ≠ .construct bike force fp) (h2 : ∀ b ∈ s.objects, b.1 ≠ bike) (file : Text) :
    (s.after o h).dir.look (.raw bike file) = s.dir.look (.raw bike file) ∧
    (s.after o h).dir.look (.par bike file) = s.dir.look (.par bike file) := by
  suffices (∀ b ∈ (s.after o h).objects, b.1 ≠ bike) ∧ (s.after o h).dir.look (.raw bike file) = s.dir.look (.raw bike file) ∧
      (s.after o h).dir.look (.par bike file) = s.dir.look (.par bike file) from this.2
  refine after_induction o (fun s' => (∀ b ∈ s'.objects, b.1 ≠ bike) ∧ s'.dir.look (.raw bike file) =
    s.dir.look (.raw bike file) ∧ s'.dir.look (.par bike file) = s.dir.look (.par bike file)) h ?_ s ⟨h2, rfl, rfl⟩
  rintro s' e he ⟨i1, i2, i3⟩
  refine ⟨?_, ?_⟩
  · cases e with
    | stop c k n => intro b hb; cases hb
    | run c =>
      cases c with
      | construct name force fp =>
        have hne : name ≠ bike := fun e => h1 _ he force fp (by rw [e]; rfl)
        intro b hb
        simp only [Session.next, Session.run] at hb
        split at hb
        · split at hb
          · rcases List.mem_append.mp hb with hb | hb
            · exact i1 b hb
            · rw [List.mem_singleton] at hb
              rw [hb]; exact hne
          · exact i1 b hb
        · exact i1 b hb
      | addRider i call =>
        intro b hb
        simp only [Session.next, Session.run] at hb
        cases hi : s'.objects[i]? with
        | none => rw [hi] at hb; exact i1 b hb
        | some nb =>
          obtain ⟨name, b'⟩ := nb
          rw [hi] at hb
          have hname := i1 _ (List.mem_of_getElem? hi)
          dsimp only at hb
          split at hb <;>
          · rcases List.mem_or_eq_of_mem_set hb with hb | hb
            · exact i1 b hb
            · rw [hb]; exact hname
      | save i filetype ans =>
        intro b hb
        simp only [Session.next, Session.run] at hb
        cases hi : s'.objects[i]? with
        | none => rw [hi] at hb; exact i1 b hb
        | some nb =>
          rw [hi] at hb
          dsimp only at hb
          split at hb <;> exact i1 b hb
  · obtain ⟨c, us, g1, g2, g3⟩ := next_form o s' e
    have hcmd : e.command = c := by rcases g1 with rfl | ⟨k, n, rfl⟩ <;> rfl
    have free : ∀ q, (q = .raw bike file ∨ q = .par bike file) → ∀ u ∈ us, u.1 ≠ q := by
      intro q hq u hu e''
      obtain ⟨w, hw, e'⟩ := g3 u hu
      have hp := writes_place o s' c w hw
      rw [← e', e''] at hp
      cases c with
      | construct name force fp =>
        dsimp only at hp
        rcases hq with rfl | rfl
        · injection hp with k1 k2
          exact h1 e he force fp (by rw [hcmd, k1])
        · cases hp
      | addRider _ _ => exact hp
      | save i filetype ans =>
        obtain ⟨name, b, hi, ⟨f, hp, -⟩ | ⟨r, f, -, -, ⟨hp, -⟩ | ⟨hp, -⟩⟩⟩ := hp
        · rcases hq with rfl | rfl
          · cases hp
          · injection hp with k1 k2
            exact i1 _ (List.mem_of_getElem? hi) k1.symm
        · rcases hq with rfl | rfl <;> cases hp
        · rcases hq with rfl | rfl <;> cases hp
    rw [g2, g2, look_puts_other _ _ _ (free _ (Or.inl rfl)), look_puts_other _ _ _ (free _ (Or.inr rfl))]
    exact ⟨i2, i3⟩

/-! ## The measurements -/

/-- The lines of a file that are not periods. -/
def Spec.otherLines (content : Text) : List Text := (textLines content).filter fun l => l.head? ≠ some 'T'

/-- A file that is empty or ends with a newline. -/
def Spec.Ended (content : Text) : Prop := content = [] ∨ content.getLast? = some '\n'

theorem ended_flatten (ls : List Text) (h : ∀ l ∈ ls, FullLine l) : Spec.Ended ls.flatten := by
  induction ls using List.reverseRecOn with
  | nil => exact Or.inl rfl
  | append_singleton ls l _ =>
    obtain ⟨t, rfl, -⟩ := h l (by simp)
    right
    simp

theorem writePeriods_keeps (io : NumIO V) (content : Text) (mp : Dict V) (hc : Spec.Ended content)
    (hp : Spec.PeriodsPrintable io mp) :
    Spec.Ended (writePeriods io content mp) ∧ Spec.otherLines (writePeriods io content mp) = Spec.otherLines content := by
  have h := (C36_file_lines io content mp hc hp).1
  have full : ∀ l ∈ ((textLines content).filter fun l => decide (l.head? ≠ some 'T')) ++
      (periodKeys mp).map (parLine io mp), FullLine l := by
    intro l hl
    rcases List.mem_append.1 hl with hl | hl
    · exact fullLine_of_mem content hc l (List.mem_filter.1 hl).1
    · exact (parLine_full io mp hp l hl).1
  constructor
  · have hw : writePeriods io content mp =
        (((textLines content).filter fun l => decide (l.head? ≠ some 'T')) ++
          (periodKeys mp).map (parLine io mp)).flatten := by
      simp [writePeriods, periodKeys, List.flatMap_def]
    rw [hw]
    exact ended_flatten _ full
  · unfold Spec.otherLines
    rw [h, List.filter_append, List.filter_filter]
    have e : ((periodKeys mp).map (parLine io mp)).filter (fun l => decide (l.head? ≠ some 'T')) = [] := by
      rw [List.filter_eq_nil_iff]
      intro l hl
      simp [(parLine_full io mp hp l hl).2]
    rw [e, List.append_nil]
    simp

theorem periods_printable {F : Type} (io : NumIO V) (load : F → Except PyErr (String × V)) (files : List F)
    (hk : ∀ file k v, load file = .ok (k, v) → '\n' ∉ k.toList) (hv : ∀ v, '\n' ∉ io.str v) (periods : Dict V)
    (h : calcPeriodsForFiles io.mean load files = .ok periods) : Spec.PeriodsPrintable io periods := by
  have hl : ∃ kts : List (String × V), files.map load = kts.map .ok := by
    unfold calcPeriodsForFiles at h
    cases hc : collectPeriods load files with
    | error e => rw [hc] at h; cases h
    | ok d0 => exact collect_loads load files [] d0 hc
  obtain ⟨kts, e⟩ := hl
  obtain ⟨d, h1, -, h3⟩ := C55_mean_per_experiment io.mean load files kts e
  rw [h] at h1
  cases h1
  intro k v hf _
  refine ⟨?_, hv v⟩
  rw [h3] at hf
  split at hf
  · rename_i hm
    obtain ⟨kv, hkv, rfl⟩ := List.mem_map.mp hm
    have : Except.ok kv ∈ files.map load := by rw [e]; exact List.mem_map_of_mem hkv
    obtain ⟨file, -, hfile⟩ := List.mem_map.mp this
    exact hk file kv.1 kv.2 hfile
  · cases hf

/-- **C136.** The measurements: as long as no call is stopped, every history keeps all lines of the file with the
measurements that are not periods. -/
theorem C136_measurements_partial (o : Outside V X H)
    (hk : ∀ split file k v, o.lab.load split file = .ok (k, v) → '\n' ∉ k.toList) (hv : ∀ v, '\n' ∉ o.lab.io.str v)
    (s : Session V X H) (h : List Event) (hrun : ∀ e ∈ h, ∃ c, e = .run c) (bike content : Text)
    (hc : s.dir.look (.raw bike (bike ++ "Measured.txt".toList)) = some content) (he : Spec.Ended content) :
    ∃ content', (s.after o h).dir.look (.raw bike (bike ++ "Measured.txt".toList)) = some content' ∧
      Spec.Ended content' ∧ Spec.otherLines content' = Spec.otherLines content := by
  refine after_induction o (fun s' => ∃ content', s'.dir.look (.raw bike (bike ++ "Measured.txt".toList)) = some content' ∧
      Spec.Ended content' ∧ Spec.otherLines content' = Spec.otherLines content) h ?_ s ⟨content, hc, he, rfl⟩
  rintro s' e he' ⟨t, h1, h2, h3⟩
  obtain ⟨c, rfl⟩ := hrun e he'
  have hl : ∀ q, (s'.next o (.run c)).dir.look q = (s'.dir.puts (s'.writes o c)).look q := run_look o s' c
  rw [hl]
  by_cases hmem : ∃ w ∈ s'.writes o c, w.1 = .raw bike (bike ++ "Measured.txt".toList)
  · obtain ⟨w, hw, e⟩ := hmem
    have hp := writes_place o s' c w hw
    rw [← e, look_puts_mem s'.dir _ (writes_nodup o s' c) w hw]
    rw [e] at hp
    cases c with
    | construct name force fp =>
      dsimp only at hp
      injection hp with k1 k2
      subst k1
      unfold Session.writes at hw
      dsimp only at hw
      split at hw
      · rcases construct_dir (H := H) o.lab bike force fp (s'.dir.bike bike) with
          ⟨g1, -⟩ | ⟨t', ps, mp, g0, -, g2, g1, -⟩ <;> rw [g1] at hw <;> simp at hw
        have : t' = t := by
          have : some t' = some t := g0.symm.trans h1
          exact Option.some.inj this
        subst this
        obtain ⟨k1, k2⟩ := writePeriods_keeps o.lab.io t' ps h2 (periods_printable o.lab.io _ _ (hk _) hv ps g2)
        rw [hw]
        exact ⟨_, rfl, k1, k2.trans h3⟩
      · simp at hw
    | addRider _ _ => exact hp.elim
    | save i _ ans =>
      obtain ⟨name, b, -, ⟨f, hp, -⟩ | ⟨r, f, -, -, ⟨hp, -⟩ | ⟨hp, -⟩⟩⟩ := hp <;> cases hp
  · rw [look_puts_other _ _ _ fun w hw e => hmem ⟨w, hw, e⟩]
    exact ⟨t, h1, h2, h3⟩

/-- A laboratory with one pendulum. -/
def exLab : Outside ℕ Unit Unit where
  lab := ⟨toyIO, fun _ _ => .ok ("T1", 2), fun mp => .ok (mp, ())⟩
  configure _ _ _ _ := .ok ([("w", 3)], ())
  combine b r := .ok [("w", b.getD "w" 0 + r.getD "w" 0)]

/-- A data directory with a measured bicycle X. -/
def exSession : Session ℕ Unit Unit where
  dir := ⟨fun b => if b = ['X'] then ⟨none, some [(measuredName ['X'], ['w', '=', '1', '\n']), (['A', '.', 'm', 'a', 't'], [])]⟩
    else ⟨none, none⟩, fun _ => ⟨[], []⟩⟩
  isDir b := b = ['X']
  objects := []

theorem exSession_writes : exSession.writes exLab (.construct ['X'] false true) =
    [(.raw ['X'] (measuredName ['X']), ['w', '=', '1', '\n', 'T', '1', ' ', '=', ' ', '1', '1', '\n'])] := by
  have hmat : matFiles [(measuredName ['X'], ['w', '=', '1', '\n']), (['A', '.', 'm', 'a', 't'], [])] =
      [(['A', '.', 'm', 'a', 't'], [])] := by
    simp [matFiles, measuredName]
    rfl
  have hb : exSession.dir.bike ['X'] = ⟨none, some [(measuredName ['X'], ['w', '=', '1', '\n']),
    (['A', '.', 'm', 'a', 't'], [])]⟩ := rfl
  have hload : loadText toyIO ['w', '=', '1', '\n'] = .ok [("w", 1)] := by decide +kernel
  have hperiods : ∀ split, calcPeriodsForFiles exLab.lab.io.mean (exLab.lab.load split) [(['A', '.', 'm', 'a', 't'], [])] =
    .ok [("T1", 2)] := fun _ => rfl
  have hw : writePeriods toyIO ['w', '=', '1', '\n'] [("T1", 2)] =
    ['w', '=', '1', '\n', 'T', '1', ' ', '=', ' ', '1', '1', '\n'] := by
    simp [writePeriods, textLines, sortKeys, Dict.keys, parLine, Dict.find?, toyIO]
  unfold Session.writes
  dsimp only
  have hdir : exSession.isDir ['X'] = true := rfl
  rw [if_pos hdir, hb]
  unfold constructWrites
  have hl : ∀ r, loadParameterSets exLab.lab.io ⟨none, r⟩ = .ok [] := fun _ => rfl
  rw [hl]
  dsimp only
  have hno : Dict.has ([] : Dict (Dict ℕ)) "Benchmark" = false := rfl
  simp only [hno, Bool.false_and, Bool.not_false, Bool.and_true, Bool.or_true, if_true, Bool.true_and, Bool.false_or]
  unfold measuredWrites
  dsimp only
  have hr : readFile ((some [(measuredName ['X'], ['w', '=', '1', '\n']), (['A', '.', 'm', 'a', 't'], [])]).getD [])
    (measuredName ['X']) = some ['w', '=', '1', '\n'] := rfl
  rw [hr]
  dsimp only
  have hload' : loadText exLab.lab.io ['w', '=', '1', '\n'] = .ok [("w", 1)] := hload
  rw [hload']
  dsimp only
  rw [Bool.true_or, if_pos rfl, Option.getD_some, hmat, hperiods]
  have hw' : writePeriods exLab.lab.io ['w', '=', '1', '\n'] [("T1", 2)] = _ := hw
  dsimp only
  rw [hw']
  rfl

/-- **C136.** A stop can lose the measurements: when the program is stopped while a construction writes the periods, the
file with the measurements can be left empty.  The measurements are then in no file. -/
theorem C136_stop_loses_measurements :
    exSession.dir.look (.raw ['X'] (['X'] ++ "Measured.txt".toList)) = some ['w', '=', '1', '\n'] ∧
    (exSession.after exLab [.stop (.construct ['X'] false true) 0 (some 0)]).dir.look
      (.raw ['X'] (['X'] ++ "Measured.txt".toList)) = some [] := by
  refine ⟨rfl, ?_⟩
  simp only [Session.after, List.foldl_cons, List.foldl_nil, Session.next]
  rw [exSession_writes]
  rfl

/-- The hypotheses of the theorems about histories can be met: a measured bicycle is constructed, the program is stopped
while it is constructed again, and a third construction fails for want of a directory. -/
example : (∀ split file k v, exLab.lab.load split file = .ok (k, v) → '\n' ∉ k.toList) ∧
    (∀ v, '\n' ∉ exLab.lab.io.str v) ∧
    Spec.otherLines ['w', '=', '1', '\n'] = [['w', '=', '1', '\n']] ∧ Spec.Ended ['w', '=', '1', '\n'] ∧
    (exSession.run exLab (.construct ['X'] false true)).1.dir.look (.raw ['X'] (measuredName ['X'])) =
      some ['w', '=', '1', '\n', 'T', '1', ' ', '=', ' ', '1', '1', '\n'] ∧
    (exSession.run exLab (.construct ['Y'] false true)).2 = some .valueError := by
  refine ⟨?_, ?_, by decide +kernel, Or.inr rfl, ?_, rfl⟩
  · intro split file k v h
    have : k = "T1" := by
      have h' : (Except.ok ("T1", 2) : Except PyErr (String × ℕ)) = .ok (k, v) := h
      injection h' with h'
      exact (congrArg Prod.fst h').symm
    rw [this]
    decide
  · intro v
    simp [exLab, toyIO]
  · rw [run_look, exSession_writes]
    rfl

end BP
