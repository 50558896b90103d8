import Verif.Model.ParameterSets
import Verif.Props.Conversions
import Verif.Props.Measured
import Verif.Props.Tables

/-!
# Parameter sets: C61 construction, C62 conversion, C63 files, C86 labels, C87 INI files
-/

set_option linter.unusedSimpArgs false

namespace BP

open Real Matrix Spec

/-! ## C61 -/

/-- The keys the class asks for are present and hold floats (`float` or `numpy.float64`). -/
def Spec.CompleteFloats (required : List String) (p : Dict SVal) : Prop :=
  ∀ k ∈ required, ∃ v, p.find? k = some v ∧ v.ty ≠ .other

theorem checkParameters_cases (p : Dict SVal) (strings : Dict String) :
    (CompleteFloats strings.keys p ∧ checkParameters p strings = .ok ()) ∨
    (¬ CompleteFloats strings.keys p ∧ checkParameters p strings = .error .valueError) := by
  induction strings with
  | nil => left; simp [CompleteFloats, Dict.keys, checkParameters]
  | cons e rest ih =>
    obtain ⟨k, lbl⟩ := e
    simp only [checkParameters, CompleteFloats, Dict.keys, List.map_cons, List.mem_cons, forall_eq_or_imp]
    cases hf : p.find? k with
    | none => right; simp
    | some v =>
      by_cases ht : v.ty = .other
      · right; simp [ht]
      · rcases ih with ⟨h1, h2⟩ | ⟨h1, h2⟩
        · left
          simp only [ht, if_false, h2, and_true]
          exact ⟨⟨v, rfl, ht⟩, h1⟩
        · right
          simp only [ht, if_false, h2, and_true]
          exact fun h => h1 h.2

/-- **C61.** A class accepts a dictionary iff every parameter of its `par_strings` is there
and is a float; the set holds the dictionary as given, extra keys included, and the rider
flag; every refusal is a `ValueError`. -/
theorem C61_accepts_iff (kind : SetKind) (p : Dict SVal) (rider : Option Bool) :
    (CompleteFloats kind.parStrings.keys p ∧ construct kind p rider = .ok ⟨kind, p, rider⟩) ∨
    (¬ CompleteFloats kind.parStrings.keys p ∧ construct kind p rider = .error .valueError) := by
  unfold construct
  rcases checkParameters_cases p kind.parStrings with ⟨h1, h2⟩ | ⟨h1, h2⟩
  · left; rw [h2]; exact ⟨h1, rfl⟩
  · right; rw [h2]; exact ⟨h1, rfl⟩

/-- The keys listed in the docstring of `Meijaard2007ParameterSet`, parameter_sets.py:239-262. -/
def Spec.meijaardDocumented : List String :=
  ["IBxx", "IBxz", "IBzz", "IFxx", "IFyy", "IHxx", "IHxz", "IHzz", "IRxx", "IRyy", "c", "g", "lam",
   "mB", "mF", "mH", "mR", "rF", "rR", "w", "xB", "xH", "zB", "zH"]

/-- The keys listed in the docstring of `Meijaard2007WithFeedbackParameterSet`,
parameter_sets.py:889-920. -/
def Spec.feedbackDocumented : List String :=
  ["IBxx", "IBxz", "IBzz", "IFxx", "IFyy", "IHxx", "IHxz", "IHzz", "IRxx", "IRyy", "c", "g",
   "kTdel_del", "kTdel_deld", "kTdel_phi", "kTdel_phid", "kTphi_del", "kTphi_deld", "kTphi_phi",
   "kTphi_phid", "lam", "mB", "mF", "mH", "mR", "rF", "rR", "w", "xB", "xH", "zB", "zH"]

/-- **C61, a finding.** A dictionary with exactly the documented keys is refused whatever its
values: the constructors also ask for `IByy`, `IHyy` and `v`. -/
theorem C61_documented_keys_refused (p : Dict SVal) (rider : Option Bool) :
    (p.keys = meijaardDocumented → construct .meijaard p rider = .error .valueError) ∧
    (p.keys = feedbackDocumented → construct .feedback p rider = .error .valueError) := by
  have key : ∀ kind : SetKind, "v" ∈ kind.parStrings.keys → "v" ∉ p.keys →
      construct kind p rider = .error .valueError := by
    intro kind h1 h2
    rcases C61_accepts_iff kind p rider with ⟨h, _⟩ | ⟨_, h⟩
    · obtain ⟨v, hv, _⟩ := h "v" h1
      rw [(Dict.find?_eq_none_iff p "v").2 h2] at hv
      simp at hv
    · exact h
  constructor
  · intro h
    exact key _ (by decide) (by rw [h]; decide)
  · intro h
    exact key _ (by decide) (by rw [h]; decide)

/-- **C61, a finding.** With the three undocumented keys added every float dictionary is
accepted. -/
theorem C61_missing_from_documentation (p : Dict SVal) (rider : Option Bool)
    (hf : ∀ k v, p.find? k = some v → v.ty ≠ .other) :
    ((∀ k ∈ meijaardDocumented ++ ["IByy", "IHyy", "v"], p.has k = true) ↔
      construct .meijaard p rider = .ok ⟨.meijaard, p, rider⟩) ∧
    ((∀ k ∈ feedbackDocumented ++ ["IByy", "IHyy", "v"], p.has k = true) ↔
      construct .feedback p rider = .ok ⟨.feedback, p, rider⟩) := by
  have key : ∀ (kind : SetKind) (L : List String), (∀ k ∈ L, k ∈ kind.parStrings.keys) →
      (∀ k ∈ kind.parStrings.keys, k ∈ L) →
      ((∀ k ∈ L, p.has k = true) ↔ construct kind p rider = .ok ⟨kind, p, rider⟩) := by
    intro kind L h1 h2
    rcases C61_accepts_iff kind p rider with ⟨h, e⟩ | ⟨h, e⟩
    · rw [e]
      simp only [iff_true]
      intro k hk
      obtain ⟨v, hv, _⟩ := h k (h1 k hk)
      exact (Dict.has_iff_exists _ _).2 ⟨v, hv⟩
    · rw [e]
      simp only [reduceCtorEq, iff_false]
      intro hall
      apply h
      intro k hk
      obtain ⟨v, hv⟩ := (Dict.has_iff_exists _ _).1 (hall k (h2 k hk))
      exact ⟨v, hv, hf k v hv⟩
  exact ⟨key _ _ (by decide) (by decide), key _ _ (by decide) (by decide)⟩

/-- A float dictionary with every key of a class. -/
def exampleSet (kind : SetKind) : Dict SVal := kind.parStrings.keys.map fun k => (k, ⟨.pyFloat, 1⟩)

theorem exampleSet_complete (kind : SetKind) : CompleteFloats kind.parStrings.keys (exampleSet kind) := by
  intro k hk
  have : (exampleSet kind).has k = true := by
    rw [Dict.has_iff_mem_keys, Dict.keys, exampleSet, List.map_map]
    simpa [Function.comp_def] using hk
  obtain ⟨v, hv⟩ := (Dict.has_iff_exists _ _).1 this
  refine ⟨v, hv, ?_⟩
  have := Dict.find?_some_mem hv
  simp only [exampleSet, List.mem_map, Prod.mk.injEq] at this
  obtain ⟨_, _, _, rfl⟩ := this
  simp

/-- non-vacuity of C61: every class accepts some dictionary and refuses the empty one -/
example (kind : SetKind) (rider : Option Bool) :
    construct kind (exampleSet kind) rider = .ok ⟨kind, exampleSet kind, rider⟩ ∧
    construct kind [] rider = .error .valueError := by
  constructor
  · rcases C61_accepts_iff kind (exampleSet kind) rider with ⟨_, h⟩ | ⟨h, _⟩
    · exact h
    · exact absurd (exampleSet_complete kind) h
  · rcases C61_accepts_iff kind [] rider with ⟨h, _⟩ | ⟨_, h⟩
    · exfalso
      have hv : "v" ∈ kind.parStrings.keys := by cases kind <;> decide
      obtain ⟨v, hv, _⟩ := h "v" hv
      simp at hv
    · exact h

/-! ## C62 -/

/-- A set that its class accepted. -/
def Spec.Valid (s : PSet) : Prop := CompleteFloats s.kind.parStrings.keys s.parameters

theorem construct_ok {kind : SetKind} {p : Dict SVal} {rider : Option Bool} {s : PSet}
    (h : construct kind p rider = .ok s) :
    s = ⟨kind, p, rider⟩ ∧ CompleteFloats kind.parStrings.keys p := by
  rcases C61_accepts_iff kind p rider with ⟨h1, h2⟩ | ⟨_, h2⟩
  · rw [h2] at h; cases h; exact ⟨rfl, h1⟩
  · rw [h2] at h; cases h

/-- **C62.** Asking for the own parameterization returns the same set; every other set that
is returned is one its class accepts, and carries the name asked for. -/
theorem C62_result_is_what_was_asked (b2m : Dict SVal → Except PyErr (Dict SVal)) (s t : PSet)
    (name : String) :
    (name = s.kind.name → toParameterization b2m s name = .ok s) ∧
    (toParameterization b2m s name = .ok t → Valid s → Valid t ∧ t.kind.name = name) := by
  constructor
  · intro h; simp [toParameterization, h]
  · intro h hs
    unfold toParameterization at h
    split at h
    · rename_i hn; cases h; exact ⟨hs, hn.symm⟩
    · have hv : ∀ {kind p r}, construct kind p r = .ok t → Valid t ∧ t.kind = kind := by
        intro kind p r hc
        obtain ⟨h1, h2⟩ := construct_ok hc
        subst h1; exact ⟨h2, rfl⟩
      split at h
      all_goals first
        | (split at h
           · rename_i hn
             split at h
             · cases h
             · split at h
               · cases h
               · obtain ⟨h1, h2⟩ := hv h
                 exact ⟨h1, by rw [h2, hn]; rfl⟩
           · split at h
             · rename_i hn
               obtain ⟨h1, h2⟩ := hv h
               exact ⟨h1, by rw [h2, hn]; rfl⟩
             · cases h)
        | (split at h
           · rename_i hn
             split at h
             · cases h
             · obtain ⟨h1, h2⟩ := hv h
               exact ⟨h1, by rw [h2, hn]; rfl⟩
           · split at h
             · rename_i hn
               split at h
               · cases h
               · obtain ⟨h1, h2⟩ := hv h
                 exact ⟨h1, by rw [h2, hn]; rfl⟩
             · cases h)
        | cases h

/-- The eight feedback gains. -/
def Spec.gains : List String :=
  ["kTdel_del", "kTdel_deld", "kTdel_phi", "kTdel_phid", "kTphi_del", "kTphi_deld", "kTphi_phi",
   "kTphi_phid"]

theorem find?_foldl_set {β : Type} (x : β) (ks : List String) (d : Dict β) (k : String) :
    (ks.foldl (fun par g => Dict.set par g x) d).find? k = if k ∈ ks then some x else d.find? k := by
  induction ks generalizing d with
  | nil => simp
  | cons g ks ih =>
    rw [List.foldl_cons, ih, Dict.find?_set]
    by_cases h1 : k ∈ ks <;> by_cases h2 : g = k <;> simp [h1, h2, eq_comm]
    intro h3; exact absurd h3.symm h2

/-- **C62.** Adding feedback to a Meijaard set always succeeds; it sets the eight gains to
zero and keeps every other parameter and the rider flag. -/
theorem C62_with_feedback (b2m : Dict SVal → Except PyErr (Dict SVal)) (s : PSet)
    (hk : s.kind = .meijaard) (hs : Valid s) :
    ∃ t, toParameterization b2m s "Meijaard2007WithFeedback" = .ok t ∧ t.kind = .feedback ∧
      t.rider = s.rider ∧
      (∀ k ∈ gains, t.parameters.find? k = some ⟨.pyFloat, 0⟩) ∧
      (∀ k, k ∉ gains → t.parameters.find? k = s.parameters.find? k) := by
  obtain ⟨kind, p, rider⟩ := s
  simp only at hk; subst hk
  set q : Dict SVal := gainNames.foldl (fun par gain => par.set gain ⟨.pyFloat, 0⟩) p with hq
  have hfind : ∀ k, q.find? k = if k ∈ gainNames then some ⟨.pyFloat, 0⟩ else p.find? k := by
    intro k; rw [hq]; exact find?_foldl_set _ _ _ _
  have hmem : ∀ k, k ∈ gains ↔ k ∈ gainNames := by
    intro k; simp only [gains, gainNames, List.mem_cons, List.not_mem_nil, or_false]; tauto
  have hc : CompleteFloats SetKind.feedback.parStrings.keys q := by
    intro k hk
    rw [hfind]
    by_cases hg : k ∈ gainNames
    · exact ⟨⟨.pyFloat, 0⟩, by simp [hg], by simp⟩
    · have : ∀ k ∈ SetKind.feedback.parStrings.keys, k ∈ gainNames ∨ k ∈ SetKind.meijaard.parStrings.keys := by
        decide
      obtain ⟨v, hv, ht⟩ := hs k ((this k hk).resolve_left hg)
      exact ⟨v, by simp [hg, hv], ht⟩
  refine ⟨⟨.feedback, q, rider⟩, ?_, rfl, rfl, ?_, ?_⟩
  · have e : toParameterization b2m ⟨.meijaard, p, rider⟩ "Meijaard2007WithFeedback" =
        construct .feedback q rider := by
      simp [toParameterization, SetKind.name, hq]
    rw [e]
    rcases C61_accepts_iff .feedback q rider with ⟨_, h⟩ | ⟨h, _⟩
    · exact h
    · exact absurd hc h
  · intro k hk
    simp only [hfind, (hmem k).1 hk, if_true]
  · intro k hk
    have : k ∉ gainNames := fun h => hk ((hmem k).2 h)
    simp only [hfind, this, if_false]

/-- **C62.** A conversion to Moore2012 keeps the speed and the rider flag; all else is what
dtk's `benchmark_to_moore` returns. -/
theorem C62_to_moore2012 (b2m : Dict SVal → Except PyErr (Dict SVal)) (s t : PSet)
    (hk : s.kind = .meijaard ∨ s.kind = .feedback)
    (h : toParameterization b2m s "Moore2012" = .ok t) :
    t.kind = .moore2012 ∧ t.rider = s.rider ∧ t.parameters.find? "v" = s.parameters.find? "v" ∧
      ∃ q, b2m s.parameters = .ok q ∧ ∀ k, k ≠ "v" → t.parameters.find? k = q.find? k := by
  obtain ⟨kind, p, rider⟩ := s
  have e : toParameterization b2m ⟨kind, p, rider⟩ "Moore2012" =
      match b2m p with
      | .error e => .error e
      | .ok q => match p.get "v" with
        | .error e => .error e
        | .ok v => construct .moore2012 (q.set "v" v) rider := by
    rcases hk with hk | hk <;> (simp only at hk; subst hk; simp [toParameterization, SetKind.name]; rfl)
  rw [e] at h
  cases hb : b2m p with
  | error e => rw [hb] at h; cases h
  | ok q =>
    rw [hb] at h
    cases hv : p.find? "v" with
    | none => simp [Dict.get, hv] at h
    | some v =>
      simp only [Dict.get, hv] at h
      obtain ⟨h1, _⟩ := construct_ok h
      subst h1
      refine ⟨rfl, rfl, by simp [hv], q, rfl, fun k hk => ?_⟩
      exact Dict.find?_set_of_ne q v fun e => hk e.symm

theorem find?_map_key {β γ : Type} (f : String → β → γ) (d : Dict β) (k : String) :
    Dict.find? (d.map fun e => (e.1, f e.1 e.2)) k = (d.find? k).map (f k) := by
  induction d with
  | nil => rfl
  | cons e d ih =>
    obtain ⟨k', v⟩ := e
    simp only [List.map_cons, Dict.find?_cons, ih]
    by_cases h : k' = k
    · subst h; simp
    · simp [h]

theorem find?_nums (p : Dict SVal) (k : String) : (nums p).find? k = (p.find? k).map SVal.val :=
  find?_map_key (fun _ => SVal.val) p k

theorem has_nums (p : Dict SVal) (k : String) : (nums p).has k = p.has k := by
  unfold Dict.has; rw [find?_nums]; cases p.find? k <;> rfl

theorem converted_keys (p : Dict ℝ) (b : Dict ℝ) (h : convertPrincipalToBenchmark p = .ok b) :
    b.keys = ["w", "c", "lam", "g", "v", "mB", "xB", "yB", "zB", "IBxx", "IByy", "IBzz", "IBxz", "mH",
      "xH", "yH", "zH", "IHxx", "IHyy", "IHzz", "IHxz", "rR", "mR", "IRxx", "IRyy", "IRzz", "rF", "mF",
      "IFxx", "IFyy", "IFzz"] := by
  unfold convertPrincipalToBenchmark at h
  cases hr : Dict.require p principalKeys with
  | error e => rw [hr] at h; simp at h
  | ok _ =>
    rw [hr] at h
    simp only [Except.ok.injEq] at h
    rw [← h]; rfl

theorem convertValues_spec (p : Dict SVal) (b : Dict SVal) (h : convertValues p = .ok b) :
    ∃ r, convertPrincipalToBenchmark (nums p) = .ok r ∧
      ∀ k, b.find? k = (r.find? k).map fun x => ⟨convertedTy p k, x⟩ := by
  unfold convertValues at h
  cases hr : convertPrincipalToBenchmark (nums p) with
  | error e => rw [hr] at h; cases h
  | ok r =>
    rw [hr] at h
    simp only [Except.ok.injEq] at h
    refine ⟨r, rfl, fun k => ?_⟩
    rw [← h]
    exact find?_map_key (fun k x => (⟨convertedTy p k, x⟩ : SVal)) r k

theorem converted_complete (p b : Dict SVal)
    (hv : CompleteFloats SetKind.moore2019.parStrings.keys p) (h : convertValues p = .ok b) :
    CompleteFloats SetKind.meijaard.parStrings.keys b := by
  obtain ⟨r, hr, hb⟩ := convertValues_spec p b h
  have hkeys := converted_keys _ _ hr
  have hty : ∀ k ∈ SetKind.moore2019.parStrings.keys, tyOf p k ≠ .other := by
    intro k hk
    obtain ⟨v, hv, ht⟩ := hv k hk
    simpa [tyOf, hv] using ht
  intro k hk
  have hin : k ∈ r.keys := by
    rw [hkeys]
    exact mem_sub (by decide) hk
  obtain ⟨x, hx⟩ := (Dict.has_iff_exists _ _).1 ((Dict.has_iff_mem_keys r k).2 hin)
  refine ⟨⟨convertedTy p k, x⟩, by rw [hb, hx]; rfl, ?_⟩
  simp only [convertedTy]
  split_ifs with ha
  · simp
  · have hcases : k ∈ arrayKeys ∨ k ∈ productKeys.map Prod.fst ∨
        (k ∈ SetKind.moore2019.parStrings.keys ∧ productKeys.find? (fun e => e.1 = k) = none) := by
      have : ∀ k ∈ SetKind.meijaard.parStrings.keys, k ∈ arrayKeys ∨ k ∈ productKeys.map Prod.fst ∨
        (k ∈ SetKind.moore2019.parStrings.keys ∧ productKeys.find? (fun e => e.1 = k) = none) := by
        decide
      exact this k hk
    cases hp : productKeys.find? (fun e => e.1 = k) with
    | some e => obtain ⟨_, a, b⟩ := e; simp only; split_ifs <;> simp
    | none =>
      rcases hcases with hc | hc | ⟨hc, _⟩
      · exact absurd hc ha
      · exfalso
        rw [List.find?_eq_none] at hp
        obtain ⟨e, he, rfl⟩ := List.mem_map.1 hc
        exact hp e he (by simp)
      · exact hty k hc

/-- **C62.** A Moore2019 set converts to Meijaard2007 iff its dictionary also holds `yD`, `yP`
and `yH`, which the class neither documents nor checks; else a `KeyError` for one of them
is raised.  The result includes the rider, and its numbers are those of
`_convert_principal_to_benchmark` (see C32). -/
theorem C62_moore2019_to_meijaard_partial (b2m : Dict SVal → Except PyErr (Dict SVal)) (s : PSet)
    (hk : s.kind = .moore2019) (hs : Valid s) :
    ((∀ k ∈ ["yD", "yP", "yH"], s.parameters.has k = true) →
      ∃ t b, toParameterization b2m s "Meijaard2007" = .ok t ∧ t.kind = .meijaard ∧
        t.rider = some true ∧ convertPrincipalToBenchmark (nums s.parameters) = .ok b ∧
        nums t.parameters = b) ∧
    ((∃ k ∈ ["yD", "yP", "yH"], s.parameters.has k = false) →
      ∃ k ∈ ["yD", "yP", "yH"], s.parameters.has k = false ∧
        toParameterization b2m s "Meijaard2007" = .error (.keyError k)) := by
  obtain ⟨kind, p, rider⟩ := s
  simp only at hk; subst hk
  have e : toParameterization b2m ⟨.moore2019, p, rider⟩ "Meijaard2007" =
      match convertValues p with
      | .error e => .error e
      | .ok b => construct .meijaard b (some true) := by
    simp [toParameterization, SetKind.name]
    rfl
  have hall : ∀ k ∈ principalKeys, k ∉ ["yD", "yP", "yH"] → (nums p).has k = true := by
    intro k hk hn
    have : ∀ k ∈ principalKeys, k ∉ ["yD", "yP", "yH"] → k ∈ SetKind.moore2019.parStrings.keys := by decide
    obtain ⟨v, hv, _⟩ := hs k (this k hk hn)
    rw [has_nums]; exact (Dict.has_iff_exists _ _).2 ⟨v, hv⟩
  constructor
  · intro hy
    obtain ⟨b, hb⟩ := (C32_succeeds_iff (nums p)).1.2 (by
      intro k hk
      by_cases hn : k ∈ ["yD", "yP", "yH"]
      · rw [has_nums]; exact hy k hn
      · exact hall k hk hn)
    have hcv : convertValues p = .ok (b.map fun e => (e.1, ⟨convertedTy p e.1, e.2⟩)) := by
      simp [convertValues, hb]
    have hcomp := converted_complete p _ hs hcv
    refine ⟨⟨.meijaard, b.map fun e => (e.1, ⟨convertedTy p e.1, e.2⟩), some true⟩, b, ?_, rfl, rfl, hb, ?_⟩
    · rw [e, hcv]
      simp only
      rcases C61_accepts_iff .meijaard (b.map fun e => (e.1, ⟨convertedTy p e.1, e.2⟩)) (some true) with
        ⟨_, h⟩ | ⟨h, _⟩
      · exact h
      · exact absurd hcomp h
    · simp [nums, Function.comp_def]
  · rintro ⟨k0, hk0, hn0⟩
    cases hb : convertPrincipalToBenchmark (nums p) with
    | ok b =>
      exfalso
      have := (C32_succeeds_iff (nums p)).1.1 ⟨b, hb⟩ k0 (mem_sub (by decide) hk0)
      rw [has_nums] at this
      simp only at hn0
      rw [hn0] at this
      simp at this
    | error err =>
      obtain ⟨k, hk, hn, rfl⟩ := (C32_succeeds_iff (nums p)).2 err hb
      have hin : k ∈ ["yD", "yP", "yH"] := by
        by_contra hc
        rw [hall k hk hc] at hn
        simp at hn
      refine ⟨k, hin, by rw [has_nums] at hn; exact hn, ?_⟩
      rw [e]
      simp [convertValues, hb]

/-- **C62 fails.** The advertised conversion of a Moore2019 set to Meijaard2007WithFeedback
never succeeds: the converted dictionary has no gains. -/
theorem C62_moore2019_to_feedback_never (b2m : Dict SVal → Except PyErr (Dict SVal)) (s t : PSet)
    (hk : s.kind = .moore2019) : toParameterization b2m s "Meijaard2007WithFeedback" ≠ .ok t := by
  obtain ⟨kind, p, rider⟩ := s
  simp only at hk; subst hk
  intro h
  have e : toParameterization b2m ⟨.moore2019, p, rider⟩ "Meijaard2007WithFeedback" =
      match convertValues p with
      | .error e => .error e
      | .ok b => construct .feedback b (some true) := by
    simp [toParameterization, SetKind.name]
    rfl
  rw [e] at h
  cases hc : convertValues p with
  | error e => rw [hc] at h; cases h
  | ok b =>
    rw [hc] at h
    obtain ⟨_, hcomp⟩ := construct_ok h
    obtain ⟨r, hr, hb⟩ := convertValues_spec p b hc
    obtain ⟨v, hv, _⟩ := hcomp "kTdel_del" (by decide)
    rw [hb, (Dict.find?_eq_none_iff r _).2 (by rw [converted_keys _ _ hr]; decide)] at hv
    simp at hv

/-- The conversions that exist besides the trivial one. -/
def Spec.Convertible (kind : SetKind) (name : String) : Prop :=
  (kind = .meijaard ∧ (name = "Moore2012" ∨ name = "Meijaard2007WithFeedback")) ∨
  (kind = .feedback ∧ name = "Moore2012") ∨ (kind = .moore2019 ∧ name = "Meijaard2007")

/-- **C62.** Every other name raises: only the conversions above can succeed, and a name that is
no parameterization raises `ValueError`.  In particular a set with feedback cannot be turned
back into a Meijaard2007 set. -/
theorem C62_other_names (b2m : Dict SVal → Except PyErr (Dict SVal)) (s : PSet) (name : String) :
    ((∃ t, toParameterization b2m s name = .ok t) → name = s.kind.name ∨ Convertible s.kind name) ∧
    ((∀ kind : SetKind, name ≠ kind.name) → toParameterization b2m s name = .error .valueError) ∧
    (s.kind = .feedback → toParameterization b2m s "Meijaard2007" = .error .valueError) := by
  refine ⟨?_, ?_, ?_⟩
  · rintro ⟨t, h⟩
    by_cases hn : name = s.kind.name
    · exact .inl hn
    · right
      by_cases h19 : s.kind = .moore2019 ∧ name = "Meijaard2007WithFeedback"
      · exact absurd (h19.2 ▸ h) (C62_moore2019_to_feedback_never b2m s t h19.1)
      · obtain ⟨kind, p, rider⟩ := s
        unfold toParameterization at h
        rw [if_neg hn] at h
        simp only [Convertible]
        cases kind <;> simp only [SetKind.name] at h h19 hn ⊢
        all_goals first | cases h | skip
        · by_cases h1 : name = "Moore2012"
          · simp [h1]
          · by_cases h2 : name = "Meijaard2007WithFeedback"
            · simp [h2]
            · simp [h1, h2] at h
        · by_cases h1 : name = "Moore2012"
          · simp [h1]
          · simp [h1, hn] at h
        · by_cases h1 : name = "Meijaard2007"
          · simp [h1]
          · have h2 : ¬ name = "Meijaard2007WithFeedback" := fun e => h19 ⟨trivial, e⟩
            simp [h1, h2] at h
  · intro h
    have h1 := h .meijaard
    have h2 := h .feedback
    have h3 := h .moore2012
    have h4 := h s.kind
    simp only [SetKind.name] at h1 h2 h3
    unfold toParameterization
    rw [if_neg h4]
    cases s.kind <;> simp [h1, h2, h3]
  · intro h
    simp [toParameterization, h, SetKind.name]

/-- non-vacuity of C62: a Moore2019 set with the three coordinates converts -/
example (b2m : Dict SVal → Except PyErr (Dict SVal)) : ∃ t, toParameterization b2m
    ⟨.moore2019, exampleSet .moore2019 ++ ["yD", "yP", "yH"].map fun k => (k, ⟨.pyFloat, 0⟩), none⟩
    "Meijaard2007" = .ok t := by
  have hs : Valid ⟨.moore2019, exampleSet .moore2019 ++
      ["yD", "yP", "yH"].map fun k => (k, ⟨.pyFloat, 0⟩), none⟩ := by
    intro k hk
    obtain ⟨v, hv, ht⟩ := exampleSet_complete .moore2019 k hk
    refine ⟨v, ?_, ht⟩
    have app : ∀ (d e : Dict SVal), d.find? k = some v → Dict.find? (d ++ e) k = some v := by
      intro d e
      induction d with
      | nil => simp
      | cons x d ih =>
        obtain ⟨k', w⟩ := x
        rw [List.cons_append, Dict.find?_cons, Dict.find?_cons]
        by_cases h : k' = k <;> simp [h]
        exact ih
    exact app _ _ hv
  obtain ⟨t, b, h, _⟩ := (C62_moore2019_to_meijaard_partial b2m _ rfl hs).1 (by
    intro k hk
    rw [Dict.has_iff_mem_keys, Dict.keys, List.map_append, List.map_map]
    refine List.mem_append_right _ ?_
    simpa [Function.comp_def] using hk)
  exact ⟨t, h⟩

/-! ## C63 -/

theorem find?_perm {β : Type} {d e : Dict β} (hp : d.Perm e) (hn : d.keys.Nodup) (k : String) :
    e.find? k = d.find? k := by
  have hk : d.keys.Perm e.keys := hp.map _
  cases h : d.find? k with
  | none =>
    rw [Dict.find?_eq_none_iff] at h ⊢
    exact fun hm => h (hk.mem_iff.2 hm)
  | some v =>
    exact Dict.find?_of_mem (hk.nodup_iff.1 hn) (hp.mem_iff.1 (Dict.find?_some_mem h))

theorem toYaml_find? (s : PSet) (hn : s.parameters.keys.Nodup) (k : String) :
    (toYaml s).values.find? k = s.parameters.find? k :=
  find?_perm (List.mergeSort_perm _ _).symm hn k

theorem toYaml_load (s : PSet) (h : ∀ e ∈ s.parameters, e.2.ty = .pyFloat) :
    yamlLoad (toYaml s) = .ok (toYaml s) := by
  unfold yamlLoad
  rw [if_neg]
  simp only [List.any_eq_true, not_exists, not_and]
  intro e he
  have := h e ((List.mergeSort_perm _ _).mem_iff.1 he)
  simp [this]

/-- Two sets of one class with the same parameters and rider flag. -/
def Spec.SameSet (s t : PSet) : Prop :=
  t.kind = s.kind ∧ t.rider = s.rider ∧ ∀ k, t.parameters.find? k = s.parameters.find? k

/-- **C63, partial.** A saved set of plain Python floats is read back with the same class and
parameters.  Missing: the rider flag comes back as `None`, so that a Meijaard set is
recovered only if its flag was `None`; Moore2012 sets are excluded, see below. -/
theorem C63_round_trip_partial (s : PSet) (hs : Valid s) (hn : s.parameters.keys.Nodup)
    (hf : ∀ e ∈ s.parameters, e.2.ty = .pyFloat) (hk : s.kind ≠ .moore2012) :
    ∃ t, fromYaml s.kind (toYaml s) = .ok t ∧ Valid t ∧ t.rider = none ∧ (SameSet s t ↔ s.rider = none) := by
  have hfind := toYaml_find? s hn
  have hc : CompleteFloats s.kind.parStrings.keys (toYaml s).values := by
    intro k hk
    rw [hfind]; exact hs k hk
  have hcon : construct s.kind (toYaml s).values none = .ok ⟨s.kind, (toYaml s).values, none⟩ := by
    rcases C61_accepts_iff s.kind (toYaml s).values none with ⟨_, h⟩ | ⟨h, _⟩
    · exact h
    · exact absurd hc h
  refine ⟨⟨s.kind, (toYaml s).values, none⟩, ?_, hc, rfl, ?_⟩
  · unfold fromYaml
    rw [toYaml_load s hf]
    have hr : (toYaml s).rider = none := rfl
    simp only
    cases hkind : s.kind <;> rw [hkind] at hcon hk <;> simp_all
  · constructor
    · exact fun h => h.2.1.symm
    · exact fun h => ⟨rfl, h.symm, hfind⟩

/-- **C63 fails.** Saving and loading a Meijaard set loses the rider flag. -/
theorem C63_rider_flag_lost (s t : PSet) (b : Bool) (hb : s.rider = some b)
    (h : fromYaml s.kind (toYaml s) = .ok t) : t.rider = none ∧ ¬ SameSet s t := by
  have hr : t.rider = none := by
    unfold fromYaml at h
    cases hl : yamlLoad (toYaml s) with
    | error e => rw [hl] at h; cases h
    | ok d =>
      rw [hl] at h
      have hd : d = toYaml s := by
        unfold yamlLoad at hl; split at hl <;> cases hl; rfl
      simp only at h
      split at h
      · rw [(construct_ok h).1, hd]; rfl
      · rw [(construct_ok h).1, hd]; rfl
      · cases h
      · rw [(construct_ok h).1]
      · rw [(construct_ok h).1]
  refine ⟨hr, fun hsame => ?_⟩
  have := hsame.2.1
  rw [hr, hb] at this
  cases this

/-- **C63 fails.** No Moore2012 set can be read from a file. -/
theorem C63_moore2012_never_loads (d : YamlDoc) (t : PSet) : fromYaml .moore2012 d ≠ .ok t := by
  unfold fromYaml
  cases yamlLoad d <;> simp

/-- **C63 fails.** A saved set with a numpy value cannot be read back, by any class; every set
converted from Moore2019 to Meijaard2007 holds such values. -/
theorem C63_numpy_values_not_readable (s : PSet) (kind : SetKind) :
    ((∃ e ∈ s.parameters, e.2.ty = .npFloat) → fromYaml kind (toYaml s) = .error .yamlError) ∧
    (∀ b2m s0, s0.kind = .moore2019 → toParameterization b2m s0 "Meijaard2007" = .ok s →
      fromYaml kind (toYaml s) = .error .yamlError) := by
  have h1 : (∃ e ∈ s.parameters, e.2.ty = .npFloat) → fromYaml kind (toYaml s) = .error .yamlError := by
    rintro ⟨e, he, ht⟩
    unfold fromYaml yamlLoad
    rw [if_pos]
    rw [List.any_eq_true]
    exact ⟨e, (List.mergeSort_perm _ _).mem_iff.2 he, by simp [ht]⟩
  refine ⟨h1, ?_⟩
  rintro b2m ⟨kind0, p, rider⟩ hk h
  simp only at hk; subst hk
  have e : toParameterization b2m ⟨.moore2019, p, rider⟩ "Meijaard2007" =
      match convertValues p with
      | .error e => .error e
      | .ok b => construct .meijaard b (some true) := by
    simp [toParameterization, SetKind.name]
    rfl
  rw [e] at h
  cases hc : convertValues p with
  | error e => rw [hc] at h; cases h
  | ok b =>
    rw [hc] at h
    obtain ⟨hs, _⟩ := construct_ok h
    apply h1
    obtain ⟨r, hr, hb⟩ := convertValues_spec p b hc
    have hin : "mB" ∈ r.keys := by rw [converted_keys _ _ hr]; decide
    obtain ⟨x, hx⟩ := (Dict.has_iff_exists _ _).1 ((Dict.has_iff_mem_keys r _).2 hin)
    have hfb : b.find? "mB" = some ⟨convertedTy p "mB", x⟩ := by rw [hb, hx]; rfl
    rw [hs]
    exact ⟨("mB", ⟨convertedTy p "mB", x⟩), Dict.find?_some_mem hfb, by simp [convertedTy, arrayKeys]⟩

/-- non-vacuity of C63 -/
example : ∃ t, fromYaml .meijaard (toYaml ⟨.meijaard, exampleSet .meijaard, some true⟩) = .ok t ∧
    t.rider = none := by
  obtain ⟨t, h, _, h2, _⟩ := C63_round_trip_partial ⟨.meijaard, exampleSet .meijaard, some true⟩
    (exampleSet_complete _) (by
      simp only [exampleSet, Dict.keys, List.map_map, Function.comp_def]
      decide) (by
      intro e he
      simp only [exampleSet, List.mem_map] at he
      obtain ⟨_, _, rfl⟩ := he
      rfl) (by decide)
  exact ⟨t, h, h2⟩

/-! ## C86 labels -/

/-- **C86, partial.** The labels of the Meijaard classes tell the parameters apart, and are the
symbols of the paper: the name, a subscript, and Greek letters spelled out. -/
theorem C86_labels_distinct_partial (kind : SetKind)
    (h : kind = .meijaard ∨ kind = .feedback ∨ kind = .moore2019) :
    (kind.parStrings.map Prod.snd).Nodup := by
  rcases h with rfl | rfl | rfl <;> decide +kernel

/-- **C86 fails.** In the two Moore2012 classes the parameters `id11` and `ie11` (moments of the
rear wheel and of the front frame) have the same label, and in Moore2019 the person's mass
`mP` is labelled as the mass of a body B, which the class does not have. -/
theorem C86_ambiguous_labels :
    (∀ kind : SetKind, kind = .moore2012 ∨ kind = .riderLean →
      kind.parStrings.find? "id11" = some "I_{D11}" ∧ kind.parStrings.find? "ie11" = some "I_{D11}") ∧
    moore2019Strings.find? "mP" = some "m_B" ∧ "B" ∉ SetKind.moore2019.bodyLabels := by
  refine ⟨?_, by decide, by decide⟩
  rintro kind (rfl | rfl) <;> decide

/-- The keys of a class are pairwise different. -/
theorem C86_keys_distinct (kind : SetKind) : kind.parStrings.keys.Nodup := by
  cases kind <;> decide +kernel

/-! ## C87 INI files and HTML tables -/

theorem written_near (x : ℚ) (d : ℕ) :
    |x - ((if x < 0 then -(roundDec x d : ℤ) else roundDec x d : ℤ) : ℚ) / 10 ^ d| ≤ 1 / 2 / 10 ^ d := by
  have h10 : (0 : ℚ) < 10 ^ d := by positivity
  have hn := roundDec_near x d
  rw [le_div_iff₀ h10]
  refine le_trans (le_of_eq ?_) hn
  conv_lhs => rw [← abs_of_pos h10, ← abs_mul, abs_of_pos h10]
  split_ifs with hx
  · rw [abs_of_neg hx, ← abs_neg]
    congr 1
    push_cast
    field_simp
    ring
  · rw [abs_of_nonneg (not_lt.1 hx)]
    congr 1
    push_cast
    field_simp

/-- **C87.** The INI file has one line per parameter, in the order of the dictionary: the name,
an equals sign and a decimal with 16 places that is within 5e-17 of the value. -/
theorem C87_ini_lines (p : List (Text × ℚ)) :
    ∃ lines : List Text, toIni p = (lines.map fun l => l ++ ['\n']).flatten ∧
      List.Forall₂ (fun (e : Text × ℚ) (l : Text) => ∃ (s : Text) (n : ℤ), l = e.1 ++ '=' :: s ∧ IsDecimal s 16 n ∧
        |e.2 - (n : ℚ) / 10 ^ 16| ≤ 1 / 2 / 10 ^ 16) p lines := by
  induction p with
  | nil => exact ⟨[], rfl, .nil⟩
  | cons e p ih =>
    obtain ⟨lines, h1, h2⟩ := ih
    refine ⟨(e.1 ++ '=' :: fixed e.2 16) :: lines, ?_, .cons ⟨_, _, rfl, fixed_isDecimal e.2 16, ?_⟩ h2⟩
    · simp only [toIni, List.flatMap_cons, List.map_cons, List.flatten_cons] at h1 ⊢
      rw [h1]; simp [iniLine]
    · exact written_near e.2 16

/-- **C87 fails as a round trip.** Sixteen decimals are not sixteen digits: every value of at most
5e-17 in magnitude is written as zero, so different parameters give the same file. -/
theorem C87_small_values_lost (k : Text) (x : ℚ) (h : |x| ≤ 1 / 2 / 10 ^ 16) :
    toIni [(k, x)] = toIni [(k, 0)] := by
  have h0 : roundDec x 16 = 0 := by
    have hn := roundHalfEven_nonneg (|x| * 10 ^ 16) (by positivity)
    have : ¬ 1 ≤ roundHalfEven (|x| * 10 ^ 16) := by
      rw [roundHalfEven_pos_iff, not_lt]
      rw [le_div_iff₀ (by positivity)] at h
      exact h
    unfold roundDec; omega
  have h0' : roundDec 0 16 = 0 := by
    unfold roundDec; simp [show roundHalfEven 0 = 0 from by exact_mod_cast roundHalfEven_intCast 0]
  simp [toIni, iniLine, fixed, h0, h0']

/-- **C87.** The HTML table has one row per parameter of the class, in the order of `par_strings`:
its label, and its value to three decimals. -/
theorem C87_html_rows (kind : SetKind) (p : Dict ℚ) (rows : List (String × Text))
    (h : htmlRows kind.parStrings p = .ok rows) :
    List.Forall₂ (fun (e : String × String) (row : String × Text) => row.1 = e.2 ∧ ∃ (x : ℚ) (n : ℤ),
      p.find? e.1 = some x ∧ IsDecimal row.2 3 n ∧ |x - (n : ℚ) / 10 ^ 3| ≤ 1 / 2 / 10 ^ 3)
      kind.parStrings rows := by
  refine (mapM_ok_forall₂ h).imp ?_
  rintro ⟨k, lbl⟩ row hr
  simp only [Dict.get] at hr
  cases hx : p.find? k with
  | none => rw [hx] at hr; cases hr
  | some x =>
    rw [hx] at hr
    cases hr
    exact ⟨rfl, x, _, rfl, fixed_isDecimal x 3, written_near x 3⟩

/-- non-vacuity of C87 -/
example : ∃ rows, htmlRows meijaardStrings (meijaardStrings.keys.map fun k => (k, 1 / 3)) = .ok rows := by
  refine mapM_total fun e he => ?_
  have : Dict.has (meijaardStrings.keys.map fun k => (k, (1 / 3 : ℚ))) e.1 = true := by
    rw [Dict.has_iff_mem_keys, Dict.keys, List.map_map]
    simp only [Function.comp_def, List.map_id']
    exact List.mem_map_of_mem (f := Prod.fst) he
  obtain ⟨v, hv⟩ := (Dict.has_iff_exists _ _).1 this
  exact ⟨(e.2, fixed v 3), by simp only [Dict.get, hv, Except.map]⟩

end BP
