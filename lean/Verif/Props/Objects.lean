import Verif.Model.Objects
import Verif.Props.ParameterSets

/-!
# C141: a parameter set stays what it was built as

What a parameter set and a model show later, over every history of calls and of changes that the program makes to the
dictionaries it holds.
-/

set_option linter.unusedSimpArgs false

namespace BP

open Spec

/-! ## Specification -/

/-- No call changes the dictionary `a`. -/
def Spec.Untouched (a : ℕ) (calls : List Call) : Prop := ∀ f, Call.change a f ∉ calls

/-- The changes store floats only and remove nothing a class asks for. -/
def Spec.TidyChanges (calls : List Call) : Prop :=
  ∀ a f, Call.change a f ∈ calls → ∀ (kind : SetKind) (d : Dict SVal),
    CompleteFloats kind.parStrings.keys d → CompleteFloats kind.parStrings.keys (f d)

/-- A dictionary without a key. -/
def Spec.without (k : String) (d : Dict SVal) : Dict SVal := d.filter fun e => e.1 ≠ k

/-! ## One call -/

/-- What one call can do to the objects there are. -/
structure Grows (c : Call) (st st' : Store) : Prop where
  sets : st.sets <+: st'.sets
  models : st.models <+: st'.models
  len : st.dicts.length ≤ st'.dicts.length
  dict : ∀ (a : ℕ) (d : Dict SVal), st.dicts[a]? = some d → (∀ f, c ≠ .change a f) → st'.dicts[a]? = some d

theorem getElem?_prefix {α : Type} {l l' : List α} (h : l <+: l') {i : ℕ} {x : α} (hx : l[i]? = some x) :
    l'[i]? = some x := by
  obtain ⟨r, rfl⟩ := h
  have hi : i < l.length := (List.getElem?_eq_some_iff.1 hx).1
  rw [List.getElem?_append_left hi, hx]

theorem Grows.refl (c : Call) (st : Store) : Grows c st st :=
  ⟨List.prefix_rfl, List.prefix_rfl, le_rfl, fun _ _ h _ => h⟩

theorem Grows.add (c : Call) (st : Store) (ds : List (Dict SVal)) (ss : List SetObj) (ms : List ℕ) :
    Grows c st ⟨st.dicts ++ ds, st.sets ++ ss, st.models ++ ms⟩ :=
  ⟨List.prefix_append _ _, List.prefix_append _ _, by simp, fun _ _ h _ =>
    getElem?_prefix (List.prefix_append _ _) h⟩

theorem convert_shape (b2m : Dict SVal → Except PyErr (Dict SVal)) (st : Store) (i : ℕ) (name : String) :
    ∃ (ds : List (Dict SVal)) (ss : List SetObj),
      (st.convert b2m i name).1 = ⟨st.dicts ++ ds, st.sets ++ ss, st.models⟩ := by
  unfold Store.convert
  cases st.view i with
  | none => exact ⟨[], [], by simp⟩
  | some s =>
    dsimp only
    split
    · exact ⟨[], [], by simp⟩
    · cases toParameterization b2m s name with
      | error e => exact ⟨[], [], by simp⟩
      | ok t => exact ⟨_, _, rfl⟩

theorem step_grows (b2m : Dict SVal → Except PyErr (Dict SVal)) (st : Store) (c : Call) :
    Grows c st (st.step b2m c).1 := by
  cases c with
  | dict d => simpa [Store.step] using Grows.add (.dict d) st [d] [] []
  | change a f =>
    refine ⟨List.prefix_rfl, List.prefix_rfl, by simp [Store.step], ?_⟩
    intro b d hb hc
    have hne : a ≠ b := by rintro rfl; exact hc f rfl
    simp [Store.step, List.getElem?_modify, hne, hb]
  | build kind a rider =>
    simp only [Store.step]
    cases st.dicts[a]? with
    | none => exact Grows.refl _ _
    | some d =>
      dsimp only
      cases construct kind d rider with
      | error e => exact Grows.refl _ _
      | ok t => simpa using Grows.add (.build kind a rider) st [] [⟨kind, a, rider⟩] []
  | convert i name =>
    obtain ⟨ds, ss, h⟩ := convert_shape b2m st i name
    simp only [Store.step, h]
    simpa using Grows.add (.convert i name) st ds ss []
  | model i name =>
    obtain ⟨ds, ss, h⟩ := convert_shape b2m st i name
    simp only [Store.step]
    cases hc : st.convert b2m i name with
    | mk st1 r =>
      rw [hc] at h
      simp only at h
      subst h
      cases r with
      | error e => simpa using Grows.add (.model i name) st ds ss []
      | ok j => simpa using Grows.add (.model i name) st ds ss [j]

theorem view_of {st : Store} {i : ℕ} {o : SetObj} {d : Dict SVal} (ho : st.sets[i]? = some o)
    (hd : st.dicts[o.dict]? = some d) : st.view i = some ⟨o.kind, d, o.rider⟩ := by
  simp [Store.view, ho, hd]

theorem view_cases {st : Store} {i : ℕ} {s : PSet} (h : st.view i = some s) :
    ∃ o : SetObj, st.sets[i]? = some o ∧ st.dicts[o.dict]? = some s.parameters ∧ o.kind = s.kind ∧ o.rider = s.rider := by
  unfold Store.view at h
  cases ho : st.sets[i]? with
  | none => rw [ho] at h; cases h
  | some o =>
    rw [ho] at h
    simp only [Option.bind_some, Option.map_eq_some_iff] at h
    obtain ⟨d, hd, rfl⟩ := h
    exact ⟨o, rfl, hd, rfl, rfl⟩

theorem modelSees_of {st : Store} {m j : ℕ} (h : st.models[m]? = some j) : st.modelSees m = st.view j := by
  simp [Store.modelSees, h]

/-- **C141.** No function of the package changes what is there: after a call that is not a change made by the program
itself, and whether the call returns or raises, every dictionary, every parameter set and every model is as before. -/
theorem C141_calls_change_nothing (b2m : Dict SVal → Except PyErr (Dict SVal)) (st : Store) (c : Call)
    (hc : ∀ a f, c ≠ .change a f) :
    (∀ (a : ℕ) (d : Dict SVal), st.dicts[a]? = some d → (st.step b2m c).1.dicts[a]? = some d) ∧
    (∀ (i : ℕ) (s : PSet), st.view i = some s → (st.step b2m c).1.view i = some s) ∧
    (∀ (m : ℕ) (s : PSet), st.modelSees m = some s → (st.step b2m c).1.modelSees m = some s) := by
  have hg := step_grows b2m st c
  have hview : ∀ (i : ℕ) (s : PSet), st.view i = some s → (st.step b2m c).1.view i = some s := by
    intro i s h
    obtain ⟨o, ho, hd, hk, hr⟩ := view_cases h
    rw [view_of (getElem?_prefix hg.sets ho) (hg.dict _ _ hd fun f => hc _ f), hk, hr]
  refine ⟨fun a d h => hg.dict a d h fun f => hc a f, hview, ?_⟩
  intro m s h
  cases hm : st.models[m]? with
  | none => simp [Store.modelSees, hm] at h
  | some j =>
    rw [modelSees_of hm] at h
    rw [modelSees_of (getElem?_prefix hg.models hm)]
    exact hview j s h

/-! ## Histories -/

theorem after_sets (b2m : Dict SVal → Except PyErr (Dict SVal)) (st : Store) (calls : List Call) :
    st.sets <+: (st.after b2m calls).sets ∧ st.models <+: (st.after b2m calls).models ∧
      st.dicts.length ≤ (st.after b2m calls).dicts.length := by
  induction calls generalizing st with
  | nil => exact ⟨List.prefix_rfl, List.prefix_rfl, le_rfl⟩
  | cons c rest ih =>
    have hg := step_grows b2m st c
    obtain ⟨h1, h2, h3⟩ := ih (st.step b2m c).1
    exact ⟨hg.sets.trans h1, hg.models.trans h2, hg.len.trans h3⟩

theorem after_dict (b2m : Dict SVal → Except PyErr (Dict SVal)) (st : Store) (calls : List Call) (a : ℕ)
    (d : Dict SVal) (hd : st.dicts[a]? = some d) (hu : Untouched a calls) :
    (st.after b2m calls).dicts[a]? = some d := by
  induction calls generalizing st with
  | nil => exact hd
  | cons c rest ih =>
    refine ih (st.step b2m c).1 ((step_grows b2m st c).dict a d hd ?_) ?_
    · rintro f rfl
      exact hu f (List.mem_cons_self ..)
    · intro f hf
      exact hu f (List.mem_cons_of_mem _ hf)

/-- **C141.** A set is built from a complete dictionary and shows it; and it keeps the dictionary, not a copy: after any
history of calls and changes, what the set shows is what the dictionary it was built from holds then. -/
theorem C141_set_is_the_dict (b2m : Dict SVal → Except PyErr (Dict SVal)) (st st1 : Store) (kind : SetKind) (a i : ℕ)
    (rider : Option Bool) (h : st.step b2m (.build kind a rider) = (st1, .ok i)) :
    (∃ d, st.dicts[a]? = some d ∧ st1.view i = some ⟨kind, d, rider⟩ ∧ CompleteFloats kind.parStrings.keys d) ∧
    ∀ calls : List Call, ∃ d, (st1.after b2m calls).dicts[a]? = some d ∧
      (st1.after b2m calls).view i = some ⟨kind, d, rider⟩ := by
  simp only [Store.step] at h
  cases hd : st.dicts[a]? with
  | none => rw [hd] at h; simp at h
  | some d =>
    rw [hd] at h
    dsimp only at h
    cases hk : construct kind d rider with
    | error e => rw [hk] at h; simp at h
    | ok t =>
      rw [hk] at h
      simp only [Prod.mk.injEq, Except.ok.injEq] at h
      obtain ⟨rfl, rfl⟩ := h
      have hset : (st.sets ++ [(⟨kind, a, rider⟩ : SetObj)])[st.sets.length]? = some ⟨kind, a, rider⟩ := by simp
      refine ⟨⟨d, rfl, view_of (o := ⟨kind, a, rider⟩) hset hd, (construct_ok hk).2⟩, ?_⟩
      intro calls
      set st1 : Store := ⟨st.dicts, st.sets ++ [⟨kind, a, rider⟩], st.models⟩ with hst1
      obtain ⟨h1, h2, h3⟩ := after_sets b2m st1 calls
      have hlt : a < (st1.after b2m calls).dicts.length :=
        lt_of_lt_of_le (List.getElem?_eq_some_iff.1 hd).1 h3
      refine ⟨_, List.getElem?_eq_getElem hlt, ?_⟩
      exact view_of (o := ⟨kind, a, rider⟩) (getElem?_prefix h1 hset) (List.getElem?_eq_getElem hlt)

theorem convert_new (b2m : Dict SVal → Except PyErr (Dict SVal)) (st st1 : Store) (i j : ℕ) (name : String) (s : PSet)
    (hs : st.view i = some s) (hn : name ≠ s.kind.name) (h : st.convert b2m i name = (st1, .ok j)) :
    ∃ t, toParameterization b2m s name = .ok t ∧
      st1 = ⟨st.dicts ++ [t.parameters], st.sets ++ [⟨t.kind, st.dicts.length, t.rider⟩], st.models⟩ ∧
      j = st.sets.length := by
  unfold Store.convert at h
  rw [hs] at h
  dsimp only at h
  rw [if_neg hn] at h
  cases ht : toParameterization b2m s name with
  | error e => rw [ht] at h; simp at h
  | ok t =>
    rw [ht] at h
    simp only [Prod.mk.injEq, Except.ok.injEq] at h
    exact ⟨t, rfl, h.1.symm, h.2.symm⟩

theorem new_set_stays (b2m : Dict SVal → Except PyErr (Dict SVal)) (st : Store) (t : PSet) (ms : List ℕ)
    (calls : List Call) (hu : Untouched st.dicts.length calls) :
    (Store.after b2m ⟨st.dicts ++ [t.parameters], st.sets ++ [⟨t.kind, st.dicts.length, t.rider⟩], ms⟩ calls).view
      st.sets.length = some t := by
  set st1 : Store := ⟨st.dicts ++ [t.parameters], st.sets ++ [⟨t.kind, st.dicts.length, t.rider⟩], ms⟩ with hst1
  have hset : st1.sets[st.sets.length]? = some ⟨t.kind, st.dicts.length, t.rider⟩ := by simp [hst1]
  have hdict : st1.dicts[st.dicts.length]? = some t.parameters := by simp [hst1]
  rw [view_of (getElem?_prefix (after_sets b2m st1 calls).1 hset) (after_dict b2m st1 calls _ _ hdict hu)]

/-- **C141.** A converted set is separate from the one it was made from: it has a dictionary of its own, which did not
exist before, and whatever the program does afterwards, to the first dictionary too, the converted set stays what the
conversion made it, unless its own dictionary is changed. -/
theorem C141_conversion_separate (b2m : Dict SVal → Except PyErr (Dict SVal)) (st st1 : Store) (i j : ℕ) (name : String)
    (s : PSet) (hs : st.view i = some s) (hn : name ≠ s.kind.name)
    (h : st.step b2m (.convert i name) = (st1, .ok j)) :
    ∃ t, toParameterization b2m s name = .ok t ∧ st1.view i = some s ∧ st.view j = none ∧
      ∃ own : ℕ, st.dicts[own]? = none ∧
        ∀ calls : List Call, Untouched own calls → (st1.after b2m calls).view j = some t := by
  have hkeep : st1.view i = some s := by
    have := (C141_calls_change_nothing b2m st (.convert i name) (by intro a f hf; cases hf)).2.1 i s hs
    rwa [h] at this
  simp only [Store.step] at h
  obtain ⟨t, ht, rfl, rfl⟩ := convert_new b2m st st1 i j name s hs hn h
  refine ⟨t, ht, hkeep, by simp [Store.view], st.dicts.length, by simp, ?_⟩
  intro calls hu
  exact new_set_stays b2m st t st.models calls hu

/-- **C141.** Asking for the parameterization a set has gives the set itself: nothing is made, so both names show the
same thing after any history. -/
theorem C141_own_name_is_the_set (b2m : Dict SVal → Except PyErr (Dict SVal)) (st : Store) (i : ℕ) (s : PSet)
    (hs : st.view i = some s) : st.step b2m (.convert i s.kind.name) = (st, .ok i) := by
  simp [Store.step, Store.convert, hs]

/-- **C141.** Models of the own parameterization share the set: two models made from one set, at any two moments, see
after any history what the set shows then. -/
theorem C141_models_share (b2m : Dict SVal → Except PyErr (Dict SVal)) (st st1 st2 : Store) (i m n : ℕ) (s t : PSet)
    (between later : List Call) (hs : st.view i = some s) (ht : (st1.after b2m between).view i = some t)
    (h1 : st.step b2m (.model i s.kind.name) = (st1, .ok m))
    (h2 : (st1.after b2m between).step b2m (.model i t.kind.name) = (st2, .ok n)) :
    (st2.after b2m later).modelSees m = (st2.after b2m later).view i ∧
    (st2.after b2m later).modelSees n = (st2.after b2m later).view i := by
  have key : ∀ (st st1 : Store) (s : PSet) (m : ℕ), st.view i = some s →
      st.step b2m (.model i s.kind.name) = (st1, .ok m) →
      st.models <+: st1.models ∧ st1.models[m]? = some i := by
    intro st st1 s m hs h
    simp only [Store.step, Store.convert, hs, if_true, Prod.mk.injEq, Except.ok.injEq] at h
    obtain ⟨rfl, rfl⟩ := h
    simp
  obtain ⟨_, hm⟩ := key st st1 s m hs h1
  obtain ⟨hp, hn⟩ := key _ st2 t n ht h2
  have hl := (after_sets b2m st2 later).2.1
  have hm' := getElem?_prefix (((after_sets b2m st1 between).2.1.trans hp).trans hl) hm
  exact ⟨modelSees_of hm', modelSees_of (getElem?_prefix hl hn)⟩

/-- **C141.** A model of another parameterization keeps the numbers it was made with: what it sees is the conversion at
the time it was made, whatever the program does to the dictionary of the set afterwards. -/
theorem C141_converted_model_keeps (b2m : Dict SVal → Except PyErr (Dict SVal)) (st st1 : Store) (i m : ℕ)
    (name : String) (s : PSet) (hs : st.view i = some s) (hn : name ≠ s.kind.name)
    (h : st.step b2m (.model i name) = (st1, .ok m)) :
    ∃ t, toParameterization b2m s name = .ok t ∧ ∃ own : ℕ, st.dicts[own]? = none ∧
      ∀ calls : List Call, Untouched own calls → (st1.after b2m calls).modelSees m = some t := by
  simp only [Store.step] at h
  cases hc : st.convert b2m i name with
  | mk st0 r =>
    rw [hc] at h
    cases r with
    | error e => simp at h
    | ok j =>
      obtain ⟨t, ht, rfl, rfl⟩ := convert_new b2m st st0 i j name s hs hn hc
      simp only [Prod.mk.injEq, Except.ok.injEq] at h
      obtain ⟨rfl, rfl⟩ := h
      refine ⟨t, ht, st.dicts.length, by simp, ?_⟩
      intro calls hu
      set st1 : Store := ⟨st.dicts ++ [t.parameters], st.sets ++ [⟨t.kind, st.dicts.length, t.rider⟩],
        st.models ++ [st.sets.length]⟩ with hst1
      have hm : st1.models[st.models.length]? = some st.sets.length := by simp [hst1]
      rw [modelSees_of (getElem?_prefix (after_sets b2m st1 calls).2.1 hm), hst1]
      exact new_set_stays b2m st t _ calls hu

/-! ## Validity -/

/-- Every set object refers to a dictionary with what its class asks for. -/
def AllValid (st : Store) : Prop := ∀ o ∈ st.sets, ∃ d, st.dicts[o.dict]? = some d ∧ CompleteFloats o.kind.parStrings.keys d

theorem allValid_add {st : Store} (h : AllValid st) (ds : List (Dict SVal)) (ss : List SetObj) (ms : List ℕ)
    (hs : ∀ o ∈ ss, ∃ d, (st.dicts ++ ds)[o.dict]? = some d ∧ CompleteFloats o.kind.parStrings.keys d) :
    AllValid ⟨st.dicts ++ ds, st.sets ++ ss, ms⟩ := by
  intro o ho
  rcases List.mem_append.1 ho with ho | ho
  · obtain ⟨d, hd, hc⟩ := h o ho
    exact ⟨d, getElem?_prefix (List.prefix_append _ _) hd, hc⟩
  · exact hs o ho

theorem allValid_view {st : Store} (h : AllValid st) {i : ℕ} {s : PSet} (hs : st.view i = some s) : Valid s := by
  obtain ⟨o, ho, hd, hk, _⟩ := view_cases hs
  obtain ⟨d, hd', hc⟩ := h o (List.mem_of_getElem? ho)
  rw [hd] at hd'
  cases hd'
  rw [Valid, ← hk]
  exact hc

theorem allValid_convert (b2m : Dict SVal → Except PyErr (Dict SVal)) {st : Store} (h : AllValid st) (i : ℕ)
    (name : String) : AllValid (st.convert b2m i name).1 := by
  unfold Store.convert
  cases hv : st.view i with
  | none => exact h
  | some s =>
    dsimp only
    split
    · exact h
    · cases ht : toParameterization b2m s name with
      | error e => exact h
      | ok t =>
        have hvt := ((C62_result_is_what_was_asked b2m s t name).2 ht (allValid_view h hv)).1
        refine allValid_add h _ _ _ ?_
        intro o ho
        rw [List.mem_singleton] at ho
        subst ho
        exact ⟨t.parameters, by simp, hvt⟩

theorem allValid_step (b2m : Dict SVal → Except PyErr (Dict SVal)) {st : Store} (h : AllValid st) (c : Call)
    (hc : ∀ a f, c = .change a f → ∀ (kind : SetKind) (d : Dict SVal),
      CompleteFloats kind.parStrings.keys d → CompleteFloats kind.parStrings.keys (f d)) :
    AllValid (st.step b2m c).1 := by
  cases c with
  | dict d => simpa [Store.step] using allValid_add h [d] [] st.models (by simp)
  | change a f =>
    intro o ho
    obtain ⟨d, hd, hco⟩ := h o ho
    by_cases ha : a = o.dict
    · refine ⟨f d, by simp [Store.step, List.getElem?_modify, ha, hd], hc a f rfl _ d hco⟩
    · exact ⟨d, by simp [Store.step, List.getElem?_modify, ha, hd], hco⟩
  | build kind a rider =>
    simp only [Store.step]
    cases hd : st.dicts[a]? with
    | none => exact h
    | some d =>
      dsimp only
      cases hk : construct kind d rider with
      | error e => exact h
      | ok t =>
        have := allValid_add h [] [⟨kind, a, rider⟩] st.models (by
          intro o ho
          rw [List.mem_singleton] at ho
          subst ho
          exact ⟨d, by simpa using hd, (construct_ok hk).2⟩)
        simpa using this
  | convert i name => exact allValid_convert b2m h i name
  | model i name =>
    have h1 := allValid_convert b2m h i name
    simp only [Store.step]
    cases hcv : st.convert b2m i name with
    | mk st1 r =>
      rw [hcv] at h1
      cases r with
      | error e => exact h1
      | ok j => exact h1

/-- **C141.** In every program whose own changes store floats and remove no required key, every parameter set, at every
moment and however it was made, has all the parameters of its class as floats.  Missing: the class does not defend this;
see `C141_change_spoils`. -/
theorem C141_stays_valid_partial (b2m : Dict SVal → Except PyErr (Dict SVal)) (calls : List Call)
    (hc : TidyChanges calls) (i : ℕ) (s : PSet) (hs : (Store.after b2m ⟨[], [], []⟩ calls).view i = some s) :
    CompleteFloats s.kind.parStrings.keys s.parameters := by
  have key : ∀ (calls : List Call) (st : Store), TidyChanges calls → AllValid st → AllValid (st.after b2m calls) := by
    intro calls
    induction calls with
    | nil => intro st _ h; exact h
    | cons c rest ih =>
      intro st ht h
      refine ih (st.step b2m c).1 (fun a f hf => ht a f (List.mem_cons_of_mem _ hf)) ?_
      exact allValid_step b2m h c fun a f hf => ht a f (hf ▸ List.mem_cons_self ..)
  exact allValid_view (key calls ⟨[], [], []⟩ hc (by intro o ho; simp at ho)) hs

theorem without_find? (k : String) (d : Dict SVal) : (without k d).find? k = none := by
  rw [Dict.find?_eq_none_iff]
  simp [without, Dict.keys]

/-- **C141** fails for changes in general: for every class and every parameter it asks for, a program that builds a set,
then deletes the key from its own dictionary, has a set that its class would refuse, and nothing raises. -/
theorem C141_change_spoils (b2m : Dict SVal → Except PyErr (Dict SVal)) (kind : SetKind) (rider : Option Bool)
    (k : String) (hk : k ∈ kind.parStrings.keys) :
    let st1 := ((⟨[], [], []⟩ : Store).step b2m (.dict (exampleSet kind))).1
    let st2 := (st1.step b2m (.build kind 0 rider)).1
    let st3 := (st2.step b2m (.change 0 (without k))).1
    (st1.step b2m (.build kind 0 rider)).2 = .ok 0 ∧ (st2.step b2m (.change 0 (without k))).2 = .ok 0 ∧
    ∃ s, st3.view 0 = some s ∧ construct s.kind s.parameters s.rider = .error .valueError := by
  have hacc : construct kind (exampleSet kind) rider = .ok ⟨kind, exampleSet kind, rider⟩ := by
    rcases C61_accepts_iff kind (exampleSet kind) rider with ⟨_, h⟩ | ⟨h, _⟩
    · exact h
    · exact absurd (exampleSet_complete kind) h
  have href : construct kind (without k (exampleSet kind)) rider = .error .valueError := by
    rcases C61_accepts_iff kind (without k (exampleSet kind)) rider with ⟨h, _⟩ | ⟨_, h⟩
    · obtain ⟨v, hv, _⟩ := h k hk
      rw [without_find?] at hv
      cases hv
    · exact h
  refine ⟨by simp [Store.step, hacc], by simp [Store.step, hacc], ⟨kind, without k (exampleSet kind), rider⟩, ?_, href⟩
  simp [Store.step, hacc, Store.view]

/-! ## The hypotheses are met -/

/-- The calls of a program: a dictionary, a set from it, the set with feedback, a model of each, a new mass. -/
def exCalls : List Call :=
  [.dict (exampleSet .meijaard), .build .meijaard 0 (some true), .convert 0 "Meijaard2007WithFeedback",
   .model 0 "Meijaard2007", .model 0 "Meijaard2007WithFeedback", .change 0 fun d => d.set "mB" ⟨.pyFloat, 2⟩]

theorem set_float_tidy (k : String) (x : ℝ) (kind : SetKind) (d : Dict SVal)
    (h : CompleteFloats kind.parStrings.keys d) :
    CompleteFloats kind.parStrings.keys (d.set k ⟨.pyFloat, x⟩) := by
  intro k' hk'
  rw [Dict.find?_set]
  by_cases hkk : k = k'
  · exact ⟨⟨.pyFloat, x⟩, by simp [hkk], by simp⟩
  · simpa [hkk] using h k' hk'

/-- non-vacuity of C141_stays_valid_partial: the changes of this program are tidy -/
example : TidyChanges exCalls := by
  intro a f hf
  simp only [exCalls, List.mem_cons, reduceCtorEq, Call.change.injEq, List.not_mem_nil, or_false, false_or] at hf
  obtain ⟨_, rfl⟩ := hf
  exact fun kind d h => set_float_tidy "mB" 2 kind d h

/-- non-vacuity of C141_set_is_the_dict, C141_conversion_separate, C141_models_share and C141_converted_model_keeps: in
this program all calls return, and the set that was converted shows the new mass while the converted one does not -/
example (b2m : Dict SVal → Except PyErr (Dict SVal)) :
    ∃ (st st2 st3 st4 : Store) (s t : PSet),
      (Store.step b2m ⟨[exampleSet .meijaard], [], []⟩ (.build .meijaard 0 (some true))) = (st, .ok 0) ∧
      st.view 0 = some s ∧ s.kind.name = "Meijaard2007" ∧
      st.step b2m (.convert 0 "Meijaard2007WithFeedback") = (st2, .ok 1) ∧
      st2.step b2m (.model 0 "Meijaard2007") = (st3, .ok 0) ∧
      st3.step b2m (.model 0 "Meijaard2007WithFeedback") = (st4, .ok 1) ∧
      toParameterization b2m s "Meijaard2007WithFeedback" = .ok t ∧
      ∃ u v, (st4.after b2m [.change 0 fun d => d.set "mB" ⟨.pyFloat, 2⟩]).view 0 = some u ∧
        u.parameters.find? "mB" = some ⟨.pyFloat, 2⟩ ∧
        (st4.after b2m [.change 0 fun d => d.set "mB" ⟨.pyFloat, 2⟩]).view 1 = some v ∧
        v.parameters.find? "mB" = some ⟨.pyFloat, 1⟩ := by
  have hacc : construct .meijaard (exampleSet .meijaard) (some true) =
      .ok ⟨.meijaard, exampleSet .meijaard, some true⟩ := by
    rcases C61_accepts_iff .meijaard (exampleSet .meijaard) (some true) with ⟨_, h⟩ | ⟨h, _⟩
    · exact h
    · exact absurd (exampleSet_complete .meijaard) h
  obtain ⟨t, ht, htk, htr, htg, hto⟩ := C62_with_feedback b2m ⟨.meijaard, exampleSet .meijaard, some true⟩ rfl
    (exampleSet_complete .meijaard)
  have hm : t.parameters.find? "mB" = some ⟨.pyFloat, 1⟩ := by
    rw [hto "mB" (by decide)]
    simp [exampleSet, SetKind.parStrings, meijaardStrings, Dict.keys, Dict.find?]
  have hname : SetKind.meijaard.name = "Meijaard2007" := rfl
  refine ⟨⟨[exampleSet .meijaard], [⟨.meijaard, 0, some true⟩], []⟩,
    ⟨[exampleSet .meijaard, t.parameters], [⟨.meijaard, 0, some true⟩, ⟨t.kind, 1, t.rider⟩], []⟩,
    ⟨[exampleSet .meijaard, t.parameters], [⟨.meijaard, 0, some true⟩, ⟨t.kind, 1, t.rider⟩], [0]⟩,
    ⟨[exampleSet .meijaard, t.parameters, t.parameters],
      [⟨.meijaard, 0, some true⟩, ⟨t.kind, 1, t.rider⟩, ⟨t.kind, 2, t.rider⟩], [0, 2]⟩,
    ⟨.meijaard, exampleSet .meijaard, some true⟩, t, ?_, ?_, rfl, ?_, ?_, ?_, ht, ?_⟩
  · simp [Store.step, hacc]
  · simp [Store.view]
  · simp [Store.step, Store.convert, Store.view, hname, ht]
  · simp [Store.step, Store.convert, Store.view, hname]
  · simp [Store.step, Store.convert, Store.view, hname, ht]
  · refine ⟨⟨.meijaard, (exampleSet .meijaard).set "mB" ⟨.pyFloat, 2⟩, some true⟩, t, ?_, by simp, ?_, hm⟩
    · simp [Store.after, Store.step, Store.view]
    · simp [Store.after, Store.step, Store.view]

end BP
