import Mathlib.Tactic.Ring
import Mathlib.Tactic.NormNum
import Verif.Model.Main
import Verif.Props.Names
import Verif.Props.Period
import Verif.Props.Canonical

set_option linter.unusedSimpArgs false
set_option linter.unusedVariables false

/-!
# C34, C35, C37, C38, C40, C42: the Bicycle object
-/

namespace BP

/-! ## C34: construction -/

/-- The parameter set a file name stands for: the second of exactly two words. -/
def Spec.setOf (fileName : Text) : Option String :=
  match spaceOutList (splitext fileName) with
  | [_, ptype] => some (String.ofList ptype)
  | _ => none

/-- The content of the last file of the listing that stands for the set `k`. -/
def Spec.lastFile (files : List (Text × Text)) (k : String) : Option Text :=
  (files.reverse.find? fun f => Spec.setOf f.1 = some k).map Prod.snd

theorem loadParStep_ok {V : Type} (io : NumIO V) (acc acc' : Dict (Dict V)) (f : Text × Text) :
    loadParStep io acc f = .ok acc' ↔
      ∃ k d, Spec.setOf f.1 = some k ∧ loadText io f.2 = .ok d ∧ acc' = Dict.set acc k d := by
  unfold loadParStep Spec.setOf
  split
  · rename_i hw
    rw [hw]
    cases h : loadText io f.2 with
    | error e => simp
    | ok d => simp [eq_comm]
  · rename_i hw
    have : (match spaceOutList (splitext f.1) with
        | [_, ptype] => some (String.ofList ptype)
        | _ => none) = none := by
      split
      · rename_i h; exact absurd h (hw _ _)
      · rfl
    rw [this]; simp

theorem loadPar_fold {V : Type} (io : NumIO V) (files : List (Text × Text)) :
    ∀ (acc params : Dict (Dict V)), files.foldlM (loadParStep io) acc = .ok params →
      (∀ f ∈ files, (Spec.setOf f.1).isSome ∧ ∃ d, loadText io f.2 = .ok d) ∧
      ∀ k, (match Spec.lastFile files k with
        | some content => ∃ d, loadText io content = .ok d ∧ params.find? k = some d
        | none => params.find? k = acc.find? k) := by
  induction files with
  | nil =>
    intro acc params h
    simp [pure, Except.pure] at h
    subst h
    simp [Spec.lastFile]
  | cons f files ih =>
    intro acc params h
    rw [List.foldlM_cons] at h
    cases hs : loadParStep io acc f with
    | error e => rw [hs] at h; simp [bind, Except.bind] at h
    | ok acc1 =>
      rw [hs] at h
      obtain ⟨k0, d0, h1, h2, h3⟩ := (loadParStep_ok io acc acc1 f).1 hs
      obtain ⟨ha, hb⟩ := ih acc1 params h
      refine ⟨?_, ?_⟩
      · intro g hg
        rcases List.mem_cons.1 hg with rfl | hg
        · exact ⟨by simp [h1], d0, h2⟩
        · exact ha g hg
      · intro k
        have := hb k
        unfold Spec.lastFile at this ⊢
        rw [List.reverse_cons, List.find?_append]
        cases hf : List.find? (fun f => decide (Spec.setOf f.1 = some k)) files.reverse with
        | some g => rw [hf] at this; simpa using this
        | none =>
          rw [hf] at this
          simp only [Option.map_none] at this
          by_cases hk : k0 = k
          · subst hk
            simp [h1, this, h3, h2]
          · simp [h1, hk, this, h3, Dict.find?_set_of_ne _ _ hk]

/-- **C34.** Loading succeeds only if every file in Parameters has a two-word name and
parses; the set named by the second word is then what the last such file of the listing
says, and no other set appears. -/
theorem C34_loaded_sets {V : Type} (io : NumIO V) (dir : BikeDir) (params : Dict (Dict V))
    (h : loadParameterSets io dir = .ok params) :
    (∀ f ∈ dir.parameters.getD [], (Spec.setOf f.1).isSome ∧ ∃ d, loadText io f.2 = .ok d) ∧
    ∀ k, (match Spec.lastFile (dir.parameters.getD []) k with
      | some content => ∃ d, loadText io content = .ok d ∧ params.find? k = some d
      | none => params.find? k = none) := by
  have := loadPar_fold io (dir.parameters.getD []) [] params h
  simpa using this

/-- The measured-parameter file of the bicycle, if there is one. -/
def Spec.measuredFile (dir : BikeDir) (name : Text) : Option Text :=
  dir.rawData.bind fun files => readFile files (name ++ ['M', 'e', 'a', 's', 'u', 'r', 'e', 'd', '.', 't', 'x', 't'])

/-- When the parameters have to be calculated: forced and possible, or not saved. -/
def Spec.Recalculates (force : Bool) (dir : BikeDir) (name : Text) : Prop :=
  (force = true ∧ (Spec.measuredFile dir name).isSome) ∨
  (force = false ∧ Spec.lastFile (dir.parameters.getD []) "Benchmark" = none)

theorem has_benchmark_iff {V : Type} (io : NumIO V) (dir : BikeDir) (params : Dict (Dict V))
    (h : loadParameterSets io dir = .ok params) :
    Dict.has params "Benchmark" = true ↔ Spec.lastFile (dir.parameters.getD []) "Benchmark" ≠ none := by
  have := (C34_loaded_sets io dir params h).2 "Benchmark"
  cases hf : Spec.lastFile (dir.parameters.getD []) "Benchmark" with
  | none => rw [hf] at this; simp [Dict.has, this]
  | some c =>
    rw [hf] at this
    obtain ⟨d, _, h2⟩ := this
    simp [Dict.has, h2]

theorem readFile_measured (dir : BikeDir) (name : Text) :
    readFile (dir.rawData.getD []) (measuredName name) = Spec.measuredFile dir name := by
  unfold Spec.measuredFile measuredName
  cases dir.rawData with
  | none => simp [readFile]
  | some fs => simp

theorem isMeasured_eq (dir : BikeDir) (name : Text) :
    (dir.rawData.isSome && (readFile (dir.rawData.getD []) (measuredName name)).isSome) =
      (Spec.measuredFile dir name).isSome := by
  rw [readFile_measured]
  unfold Spec.measuredFile
  cases dir.rawData <;> simp

theorem recalc_iff {V : Type} (io : NumIO V) (dir : BikeDir) (params : Dict (Dict V)) (name : Text)
    (force : Bool) (h : loadParameterSets io dir = .ok params) :
    ((force && dir.rawData.isSome &&
      (dir.rawData.isSome && (readFile (dir.rawData.getD []) (measuredName name)).isSome) ||
      !force && !Dict.has params "Benchmark") = true) ↔ Spec.Recalculates force dir name := by
  have hb := has_benchmark_iff io dir params h
  rw [isMeasured_eq]
  unfold Spec.Recalculates
  have hr : (Spec.measuredFile dir name).isSome = true → dir.rawData.isSome = true := by
    unfold Spec.measuredFile; cases dir.rawData <;> simp
  cases force <;> simp
  · rw [← Bool.not_eq_true, hb]; simp
  · exact hr

/-- What `calculate_from_measured` can do to the parameter sets: only set `Measured`. -/
theorem calculateFromMeasured_sets {V X : Type} (c : Calc V X) (name : Text) (fp : Bool)
    (dir dir' : BikeDir) (params params' : Dict (Dict V)) (r : Dict V × X)
    (h : calculateFromMeasured c name fp dir params = (dir', params', .ok r)) :
    dir'.parameters = dir.parameters ∧
    ∃ mp, params' = Dict.set params "Measured" mp ∧ c.bench mp = .ok r := by
  unfold calculateFromMeasured at h
  dsimp only at h
  split at h
  · simp at h
  · split at h
    · simp at h
    · rename_i content _ mp _
      split at h
      · split at h
        · simp at h
        · rename_i periods _
          simp only [Prod.mk.injEq] at h
          obtain ⟨h1, h2, h3⟩ := h
          exact ⟨by rw [← h1], _, h2.symm, h3⟩
      · simp only [Prod.mk.injEq] at h
        obtain ⟨h1, h2, h3⟩ := h
        exact ⟨by rw [← h1], _, h2.symm, h3⟩

/-- **C34.** Construction recalculates exactly when forced with measured data present, or
when no benchmark file was loaded (`extras` exists only then).  A recalculation makes the
Benchmark set the one calculated from the Measured set; otherwise no file changes and every
set but Measured is as loaded, Measured being the content of the measured file if there is
one.  In every case the other sets are as loaded and there is no rider. -/
theorem C34_construction {V X H : Type} (c : Calc V X) (name : Text) (force fp : Bool)
    (dir dir' : BikeDir) (params : Dict (Dict V)) (b : Bike V X H)
    (hl : loadParameterSets c.io dir = .ok params)
    (h : initBicycle c name force fp dir = (dir', .ok b)) :
    (b.extras.isSome ↔ Spec.Recalculates force dir name) ∧
    (Spec.Recalculates force dir name → ∃ mp par x, b.parameters.find? "Measured" = some mp ∧
      c.bench mp = .ok (par, x) ∧ b.parameters.find? "Benchmark" = some par ∧ b.extras = some x) ∧
    (¬ Spec.Recalculates force dir name → dir' = dir ∧
      (∀ k, k ≠ "Measured" → b.parameters.find? k = params.find? k) ∧
      (force = false → ∀ content, Spec.measuredFile dir name = some content →
        ∀ mp, loadText c.io content = .ok mp → b.parameters.find? "Measured" = some mp)) ∧
    (∀ k, k ≠ "Measured" → k ≠ "Benchmark" → b.parameters.find? k = params.find? k) ∧
    dir'.parameters = dir.parameters ∧ b.hasRider = false ∧ b.riderPar = [] ∧ b.human.isNone := by
  have hrec := recalc_iff c.io dir params name force hl
  unfold initBicycle at h
  rw [hl] at h
  dsimp only at h
  by_cases hR : Spec.Recalculates force dir name
  · rw [if_pos (hrec.2 hR)] at h
    split at h
    · simp at h
    · rename_i d1 p1 par ex hcalc
      obtain ⟨hd, mp, hp, hbench⟩ := calculateFromMeasured_sets c name fp dir d1 params p1 (par, ex) hcalc
      simp only [Prod.mk.injEq, Except.ok.injEq] at h
      obtain ⟨h1, h2⟩ := h
      subst h1; subst h2; subst hp
      refine ⟨by simp [hR], ?_, fun hn => absurd hR hn, ?_, hd, rfl, rfl, rfl⟩
      · intro _
        exact ⟨mp, par, ex, by simp [Dict.find?_set], hbench, by simp, rfl⟩
      · intro k hk1 hk2
        rw [Dict.find?_set_of_ne _ _ (Ne.symm hk2), Dict.find?_set_of_ne _ _ (Ne.symm hk1)]
  · rw [if_neg (fun hh => hR (hrec.1 hh))] at h
    split at h
    · rename_i hc
      simp only [Bool.and_eq_true, Bool.not_eq_true'] at hc
      rw [readFile_measured] at h
      split at h
      · rename_i hm
        simp only [Prod.mk.injEq, Except.ok.injEq] at h
        obtain ⟨h1, h2⟩ := h
        subst h1; subst h2
        refine ⟨by simp [hR], fun hh => absurd hh hR, fun _ => ⟨rfl, fun _ _ => rfl, ?_⟩,
          fun _ _ _ => rfl, rfl, rfl, rfl, rfl⟩
        intro _ content hmf; rw [hm] at hmf; simp at hmf
      · rename_i content hm
        split at h
        · rename_i hio
          simp only [Prod.mk.injEq, Except.ok.injEq] at h
          obtain ⟨h1, h2⟩ := h
          subst h1; subst h2
          refine ⟨by simp [hR], fun hh => absurd hh hR, fun _ => ⟨rfl, fun _ _ => rfl, ?_⟩,
            fun _ _ _ => rfl, rfl, rfl, rfl, rfl⟩
          intro _ content' hmf mp hmp
          rw [hm] at hmf; injection hmf with hmf; subst hmf
          rw [hio] at hmp; simp at hmp
        · simp at h
        · rename_i mp hmp
          simp only [Prod.mk.injEq, Except.ok.injEq] at h
          obtain ⟨h1, h2⟩ := h
          subst h1; subst h2
          refine ⟨by simp [hR], fun hh => absurd hh hR, fun _ => ⟨rfl, ?_, ?_⟩, ?_, rfl, rfl, rfl, rfl⟩
          · intro k hk; simp [Dict.find?_set_of_ne _ _ (Ne.symm hk)]
          · intro _ content' hmf mp' hmp'
            rw [hm] at hmf; injection hmf with hmf; subst hmf
            rw [hmp] at hmp'; injection hmp' with hmp'; subst hmp'
            simp
          · intro k hk _; simp [Dict.find?_set_of_ne _ _ (Ne.symm hk)]
    · rename_i hnb
      simp only [Prod.mk.injEq, Except.ok.injEq] at h
      obtain ⟨h1, h2⟩ := h
      subst h1; subst h2
      refine ⟨by simp [hR], fun hh => absurd hh hR, fun _ => ⟨rfl, fun _ _ => rfl, ?_⟩,
        fun _ _ _ => rfl, rfl, rfl, rfl, rfl⟩
      intro hf
      exfalso
      subst hf
      apply hR
      right
      refine ⟨rfl, ?_⟩
      by_contra hne
      exact hnb (by simp [(has_benchmark_iff c.io dir params hl).2 hne])

/-- **C34.** Neither saved benchmark parameters nor measured data and no force: the
construction fails (the measured file cannot be opened) and no file changes. -/
theorem C34_no_data {V X H : Type} (c : Calc V X) (name : Text) (fp : Bool)
    (dir : BikeDir) (params : Dict (Dict V)) (hl : loadParameterSets c.io dir = .ok params)
    (h1 : Spec.lastFile (dir.parameters.getD []) "Benchmark" = none)
    (h2 : Spec.measuredFile dir name = none) :
    initBicycle (H := H) c name false fp dir = (dir, .error .ioError) := by
  have hR : Spec.Recalculates false dir name := Or.inr ⟨rfl, h1⟩
  have hrec := (recalc_iff c.io dir params name false hl).2 hR
  unfold initBicycle
  rw [hl]
  dsimp only
  rw [if_pos hrec]
  unfold calculateFromMeasured
  dsimp only
  rw [readFile_measured, h2]

/-- **C34.** Without benchmark or measured data, forcing gives an object that holds only
what was loaded. -/
theorem C34_forced_without_data {V X H : Type} (c : Calc V X) (name : Text) (fp : Bool)
    (dir : BikeDir) (params : Dict (Dict V)) (hl : loadParameterSets c.io dir = .ok params)
    (h2 : Spec.measuredFile dir name = none) :
    initBicycle (X := X) (H := H) c name true fp dir =
      (dir, .ok ⟨params, none, false, none, [], none⟩) := by
  have hR : ¬ Spec.Recalculates true dir name := by simp [Spec.Recalculates, h2]
  have hrec := fun hh => hR ((recalc_iff c.io dir params name true hl).1 hh)
  unfold initBicycle
  rw [hl]
  dsimp only
  rw [if_neg hrec]
  simp

/-- **C34.** One file in Parameters whose name is not made of exactly two words makes every
construction fail. -/
theorem C34_stray_file {V X H : Type} (c : Calc V X) (name : Text) (force fp : Bool)
    (dir : BikeDir) (f : Text × Text) (hf : f ∈ dir.parameters.getD [])
    (hn : Spec.setOf f.1 = none) :
    ∃ e, initBicycle (X := X) (H := H) c name force fp dir = (dir, .error e) := by
  unfold initBicycle
  cases hl : loadParameterSets c.io dir with
  | error e => exact ⟨e, rfl⟩
  | ok params =>
    have := ((C34_loaded_sets c.io dir params hl).1 f hf).1
    rw [hn] at this
    simp at this

/-! ## C40 -/

theorem mapM_secondChar (ks : List String) :
    (ks.mapM secondChar = .error .indexError ↔ ∃ k ∈ ks, k.toList.length < 2) ∧
    (∀ parts, ks.mapM secondChar = .ok parts ↔
      (∀ k ∈ ks, 2 ≤ k.toList.length) ∧ parts = ks.map fun k => k.toList.getD 1 'x') := by
  induction ks with
  | nil => simp [pure, Except.pure, eq_comm]
  | cons k ks ih =>
    have hk : secondChar k = .error .indexError ∧ k.toList.length < 2 ∨
        secondChar k = .ok (k.toList.getD 1 'x') ∧ 2 ≤ k.toList.length := by
      unfold secondChar
      cases h : k.toList[1]? with
      | none => left; rw [List.getElem?_eq_none_iff] at h; exact ⟨rfl, by omega⟩
      | some c =>
        right
        have := (List.getElem?_eq_some_iff.1 h).1
        exact ⟨by simp [List.getD, h], by omega⟩
    rw [List.mapM_cons]
    rcases hk with ⟨h1, h2⟩ | ⟨h1, h2⟩
    · rw [h1]
      constructor
      · simp only [bind, Except.bind, true_iff]; exact ⟨k, by simp, h2⟩
      · intro parts
        simp only [bind, Except.bind, reduceCtorEq, false_iff]
        rintro ⟨h, _⟩
        have := h k (by simp)
        omega
    · rw [h1]
      cases hm : ks.mapM secondChar with
      | error e =>
        constructor
        · simp only [bind, Except.bind]
          rw [hm] at ih
          have h3 := ih.1
          constructor
          · rintro he
            obtain ⟨x, hx, hl⟩ := h3.1 (by simpa using he)
            exact ⟨x, by simp [hx], hl⟩
          · rintro ⟨x, hx, hl⟩
            rcases List.mem_cons.1 hx with rfl | hx
            · omega
            · simpa using h3.2 ⟨x, hx, hl⟩
        · intro parts
          simp only [bind, Except.bind, reduceCtorEq, false_iff]
          rintro ⟨h, _⟩
          have := (ih.2 (ks.map fun k => k.toList.getD 1 'x')).2
            ⟨fun x hx => h x (List.mem_cons_of_mem _ hx), rfl⟩
          rw [hm] at this
          simp at this
      | ok ps =>
        have h3 := (ih.2 ps).1 hm
        constructor
        · simp only [bind, Except.bind, pure, Except.pure, reduceCtorEq, false_iff]
          rintro ⟨x, hx, hl⟩
          rcases List.mem_cons.1 hx with rfl | hx
          · omega
          · have := h3.1 x hx; omega
        · intro parts
          simp only [bind, Except.bind, pure, Except.pure, Except.ok.injEq]
          constructor
          · rintro rfl
            refine ⟨?_, by rw [h3.2]; rfl⟩
            intro x hx
            rcases List.mem_cons.1 hx with rfl | hx
            · exact h2
            · exact h3.1 x hx
          · rintro ⟨_, rfl⟩
            rw [h3.2]; rfl

/-- **C40.** The parts of a parameter dictionary are the second characters of the keys that
start with m; exactly a key that is just m raises `IndexError`. -/
theorem C40_parts {V : Type} (par : Dict V) :
    (getPartsInParameters par = .error .indexError ↔ "m" ∈ par.keys) ∧
    ∀ parts, getPartsInParameters par = .ok parts →
      "m" ∉ par.keys ∧
      ∀ c, c ∈ parts ↔ ∃ r : List Char, String.ofList ('m' :: c :: r) ∈ par.keys := by
  have hm := mapM_secondChar ((Dict.keys par).filter fun k => k.toList.head? = some 'm')
  have hshort : (∃ k ∈ (Dict.keys par).filter (fun k => k.toList.head? = some 'm'), k.toList.length < 2) ↔
      "m" ∈ par.keys := by
    constructor
    · rintro ⟨k, hk, hl⟩
      rw [List.mem_filter] at hk
      have h1 : k.toList = ['m'] := by
        have := hk.2
        cases h : k.toList with
        | nil => simp [h] at this
        | cons a l =>
          simp [h] at this
          subst this
          rw [h] at hl
          cases l with
          | nil => rfl
          | cons b l => simp at hl
      have h2 : k = "m" := by
        rw [← String.ofList_toList (s := k), h1]
      rw [← h2]; exact hk.1
    · intro h
      exact ⟨"m", by simp [List.mem_filter, h], by simp⟩
  unfold getPartsInParameters
  refine ⟨by rw [hm.1, hshort], ?_⟩
  intro parts hp
  obtain ⟨h1, h2⟩ := (hm.2 parts).1 hp
  refine ⟨?_, ?_⟩
  · intro h
    obtain ⟨k, hk, hl⟩ := hshort.2 h
    have := h1 k hk
    omega
  intro c
  rw [h2, List.mem_map]
  constructor
  · rintro ⟨k, hk, rfl⟩
    have hl := h1 k hk
    rw [List.mem_filter] at hk
    cases h : k.toList with
    | nil => simp [h] at hl
    | cons a l =>
      cases l with
      | nil => simp [h] at hl
      | cons b l =>
        have := hk.2
        simp [h] at this
        subst this
        refine ⟨l, ?_⟩
        have e : k = String.ofList ('m' :: b :: l) := by rw [← h, String.ofList_toList]
        show String.ofList ('m' :: b :: l) ∈ par.keys
        rw [← e]; exact hk.1
  · rintro ⟨r, hr⟩
    refine ⟨_, List.mem_filter.2 ⟨hr, ?_⟩, ?_⟩
    · simp
    · simp

/-- **C40.** When every key that starts with m is m and one more character, a bicycle has one
part per mass: the parts are distinct and as many as the masses. -/
theorem C40_parts_distinct {V : Type} (par : Dict V) (parts : List Char)
    (hn : par.keys.Nodup)
    (h2 : ∀ k ∈ par.keys, k.toList.head? = some 'm' → k.toList.length = 2)
    (h : getPartsInParameters par = .ok parts) : parts.Nodup := by
  have hm := (mapM_secondChar ((Dict.keys par).filter fun k => k.toList.head? = some 'm')).2 parts
  obtain ⟨h1, h3⟩ := hm.1 h
  rw [h3]
  refine List.Nodup.map_on ?_ (hn.filter _)
  intro x hx y hy hxy
  rw [List.mem_filter] at hx hy
  have e : ∀ z : String, z ∈ par.keys → z.toList.head? = some 'm' →
      z = String.ofList ['m', z.toList.getD 1 'x'] := by
    intro z hz hzm
    have := h2 z hz hzm
    conv_lhs => rw [← String.ofList_toList (s := z)]
    congr 1
    match hzl : z.toList, this, hzm with
    | [a, b], _, hzm => simp at hzm; simp [hzm]
  rw [e x hx.1 (by simpa using hx.2), e y hy.1 (by simpa using hy.2), hxy]

/-- **C40.** The fork counts as split exactly when some key has S as its first or second
character. -/
theorem C40_fork_split {V : Type} (mp : Dict V) :
    isForkSplit mp = true ↔ ∃ k ∈ mp.keys, (∃ r, k = String.ofList ('S' :: r)) ∨
      ∃ a r, k = String.ofList (a :: 'S' :: r) := by
  have hst : ∀ (k : String) (l : List Char), k = String.ofList l ↔ k.toList = l := by
    intro k l
    constructor
    · rintro rfl; simp
    · rintro rfl; simp
  unfold isForkSplit
  rw [List.any_eq_true]
  constructor
  · rintro ⟨k, hk, h⟩
    refine ⟨k, hk, ?_⟩
    simp only [hst]
    match hkl : k.toList with
    | [] => rw [hkl] at h; simp at h
    | [a] => rw [hkl] at h; simp at h; left; exact ⟨[], by simp [h]⟩
    | a :: b :: r =>
      rw [hkl] at h; simp at h
      rcases h with h | h
      · left; exact ⟨b :: r, by simp [h]⟩
      · right; exact ⟨a, r, by simp [h]⟩
  · rintro ⟨k, hk, h⟩
    refine ⟨k, hk, ?_⟩
    simp only [hst] at h
    rcases h with ⟨r, h⟩ | ⟨a, r, h⟩ <;> simp [h]

/-- non-vacuity of C40 -/
example : getPartsInParameters [("mB", (1 : ℕ)), ("c", 2), ("mH", 3)] = .ok ['B', 'H'] ∧
    isForkSplit [("mB", (1 : ℕ)), ("mS", 3)] = true ∧ isForkSplit [("mB", (1 : ℕ)), ("mH", 3)] = false :=
  ⟨rfl, rfl, rfl⟩

/-! ## C38: add_rider -/

/-- The object after a sequence of calls. -/
def Spec.afterCalls {V X H : Type} (w : RiderWorld V H) (b : Bike V X H) (calls : List RiderCall) :
    Bike V X H := calls.foldl (fun b c => (addRider w b c).1) b

/-- **C38.** A call that raises changes nothing, a call on a bicycle with a rider changes
nothing and raises nothing, and a call that succeeds on a bicycle without a rider sets the
rider. -/
theorem C38_one_call {V X H : Type} (w : RiderWorld V H) (b : Bike V X H) (c : RiderCall) :
    (b.hasRider = true → addRider w b c = (b, .ok ())) ∧
    (∀ e, (addRider w b c).2 = .error e → (addRider w b c).1 = b) ∧
    (b.hasRider = false → (addRider w b c).2 = .ok () →
      ∃ bench riderPar comb, b.parameters.find? "Benchmark" = some bench ∧
        w.combine bench riderPar = .ok comb ∧
        (addRider w b c).1.hasRider = true ∧ (addRider w b c).1.riderName = some c.riderName ∧
        (addRider w b c).1.riderPar.find? "Benchmark" = some riderPar ∧
        (addRider w b c).1.parameters.find? "Benchmark" = some comb ∧
        (∀ k, k ≠ "Benchmark" → (addRider w b c).1.parameters.find? k = b.parameters.find? k) ∧
        (addRider w b c).1.extras = b.extras ∧
        (∀ content, c.reCalc = false → c.draw = false → w.file c.riderName = some content →
          loadText w.io content = .ok riderPar ∧ (addRider w b c).1.human = none) ∧
        (c.reCalc = true ∨ c.draw = true ∨ w.file c.riderName = none →
          ∃ measured human, b.parameters.find? "Measured" = some measured ∧
            w.configure c.riderName bench measured c.draw = .ok (riderPar, human) ∧
            (addRider w b c).1.human = some human)) := by
  have hconf : ∀ bench riderPar human comb, configureRider w b c bench = .ok (riderPar, human, comb) →
      w.combine bench riderPar = .ok comb ∧ ∃ measured hu, b.parameters.find? "Measured" = some measured ∧
        w.configure c.riderName bench measured c.draw = .ok (riderPar, hu) ∧ human = some hu := by
    intro bench riderPar human comb h
    unfold configureRider at h
    cases hm : Dict.find? b.parameters "Measured" with
    | none => simp [Dict.get, hm] at h
    | some measured =>
      simp only [Dict.get, hm] at h
      split at h
      · simp at h
      · rename_i rp hu hcf
        split at h
        · simp at h
        · rename_i cb hcb
          simp only [Except.ok.injEq, Prod.mk.injEq] at h
          obtain ⟨h1, h2, h3⟩ := h
          subst h1; subst h3
          exact ⟨hcb, measured, hu, rfl, hcf, h2.symm⟩
  unfold addRider
  dsimp only
  refine ⟨fun h => by simp [h], ?_, ?_⟩
  · intro e
    split
    · simp
    · split
      · simp
      · split
        · simp
        · simp
  · intro hr
    simp only [hr, Bool.false_eq_true, if_false]
    cases hb : Dict.find? b.parameters "Benchmark" with
    | none => simp [Dict.get, hb]
    | some bench =>
      simp only [Dict.get, hb]
      split
      · simp
      · rename_i riderPar human comb hres
        intro _
        have hother : ∀ k, k ≠ "Benchmark" →
            Dict.find? (Dict.set b.parameters "Benchmark" comb) k = Dict.find? b.parameters k :=
          fun k hk => Dict.find?_set_of_ne _ _ (Ne.symm hk)
        by_cases hre : (c.reCalc || c.draw) = true
        · rw [if_pos hre] at hres
          obtain ⟨h1, measured, hu, h2, h3, h4⟩ := hconf _ _ _ _ hres
          refine ⟨bench, riderPar, comb, rfl, h1, rfl, rfl, by simp, by simp, hother, rfl, ?_, ?_⟩
          · intro content hc1 hc2; simp [hc1, hc2] at hre
          · intro _; exact ⟨measured, hu, h2, h3, h4⟩
        · rw [if_neg hre] at hres
          simp only [Bool.or_eq_true, not_or, Bool.not_eq_true] at hre
          split at hres
          · rename_i hfile
            obtain ⟨h1, measured, hu, h2, h3, h4⟩ := hconf _ _ _ _ hres
            refine ⟨bench, riderPar, comb, rfl, h1, rfl, rfl, by simp, by simp, hother, rfl, ?_, ?_⟩
            · intro content _ _ hf; rw [hfile] at hf; simp at hf
            · intro _; exact ⟨measured, hu, h2, h3, h4⟩
          · rename_i content hfile
            split at hres
            · simp at hres
            · rename_i rp hrp
              split at hres
              · simp at hres
              · rename_i cb hcb
                simp only [Except.ok.injEq, Prod.mk.injEq] at hres
                obtain ⟨h1, h2, h3⟩ := hres
                subst h1; subst h3
                refine ⟨bench, rp, cb, rfl, hcb, rfl, rfl, by simp, by simp, hother, rfl, ?_, ?_⟩
                · intro content' _ _ hf
                  rw [hfile] at hf; injection hf with hf; subst hf
                  exact ⟨hrp, h2.symm⟩
                · rintro (h | h | h)
                  · simp [h] at hre
                  · simp [h] at hre
                  · rw [hfile] at h; simp at h

/-- **C38.** Whatever the sequence of calls on a bicycle without a rider, the object is
afterwards what the first successful call alone makes of it; without a successful call it is
unchanged.  So at most one rider is added, and its mass is added once. -/
theorem C38_at_most_one_rider {V X H : Type} (w : RiderWorld V H) (b : Bike V X H)
    (hb : b.hasRider = false) (calls : List RiderCall) :
    (Spec.afterCalls w b calls = b ∧ ∀ c ∈ calls, ∃ e, (addRider w b c).2 = .error e) ∨
    ∃ pre c post, calls = pre ++ c :: post ∧ (∀ x ∈ pre, ∃ e, (addRider w b x).2 = .error e) ∧
      (addRider w b c).2 = .ok () ∧ Spec.afterCalls w b calls = (addRider w b c).1 ∧
      (Spec.afterCalls w b calls).hasRider = true := by
  have hstay : ∀ (b : Bike V X H) (cs : List RiderCall), b.hasRider = true →
      Spec.afterCalls w b cs = b := by
    intro b cs
    induction cs with
    | nil => intro _; rfl
    | cons c cs ih =>
      intro h
      show Spec.afterCalls w (addRider w b c).1 cs = b
      rw [(C38_one_call w b c).1 h]
      exact ih h
  induction calls with
  | nil => left; exact ⟨rfl, by simp⟩
  | cons c cs ih =>
    have hstep : Spec.afterCalls w b (c :: cs) = Spec.afterCalls w (addRider w b c).1 cs := rfl
    cases hr : (addRider w b c).2 with
    | error e =>
      have hsame := (C38_one_call w b c).2.1 e hr
      rw [hstep, hsame]
      rcases ih with ⟨h1, h2⟩ | ⟨pre, c', post, h1, h2, h3, h4, h5⟩
      · left
        refine ⟨h1, ?_⟩
        intro x hx
        rcases List.mem_cons.1 hx with rfl | hx
        · exact ⟨e, hr⟩
        · exact h2 x hx
      · right
        refine ⟨c :: pre, c', post, by rw [h1]; rfl, ?_, h3, h4, h5⟩
        intro x hx
        rcases List.mem_cons.1 hx with rfl | hx
        · exact ⟨e, hr⟩
        · exact h2 x hx
    | ok u =>
      right
      obtain ⟨_, _, _, _, _, hh, _⟩ := (C38_one_call w b c).2.2 hb hr
      refine ⟨[], c, cs, rfl, by simp, hr, ?_, ?_⟩
      · rw [hstep]; exact hstay _ _ hh
      · rw [hstep, hstay _ _ hh]; exact hh

/-- non-vacuity of C38: a world in which the first call fails (no Measured set), the second
succeeds from the file, the third is ignored. -/
example :
    let w : RiderWorld ℕ Unit := ⟨toyIO, fun n => if n = ['A'] then some [] else none,
      fun _ _ _ _ => .error .valueError, fun b r => .ok (("x", 1) :: b)⟩
    let b : Bike ℕ Unit Unit := ⟨[("Benchmark", [])], none, false, none, [], none⟩
    (Spec.afterCalls w b [⟨['B'], false, false⟩, ⟨['A'], false, false⟩, ⟨['B'], true, false⟩]).riderName
      = some ['A'] ∧
    (Spec.afterCalls w b [⟨['B'], false, false⟩, ⟨['A'], false, false⟩, ⟨['B'], true, false⟩]).parameters
      = [("Benchmark", [("x", 1)])] := ⟨rfl, rfl⟩

/-! ## C37: recalculated periods -/

theorem readFile_writeFile (files : List (Text × Text)) (name content name' : Text) :
    readFile (writeFile files name content) name' =
      if name' = name then some content else readFile files name' := by
  have hmap : ∀ fs : List (Text × Text), readFile (fs.map fun f => if f.1 = name then (name, content) else f) name' =
      if name' = name then (if fs.any (fun f => f.1 = name) then some content else none)
      else readFile fs name' := by
    intro fs
    induction fs with
    | nil => simp [readFile]
    | cons f fs ih =>
      unfold readFile at ih ⊢
      rw [List.map_cons, List.find?_cons, List.find?_cons]
      by_cases h1 : f.1 = name
      · by_cases h2 : name' = name
        · subst h2; simp [h1]
        · have h3 : ¬ name = name' := fun e => h2 e.symm
          have h4 : ¬ f.1 = name' := by rw [h1]; exact h3
          simp [h1, h3, h2] at ih ⊢
          exact ih
      · by_cases h2 : name' = name
        · subst h2
          have hd : decide (f.1 = name') = false := decide_eq_false h1
          have he : (f :: fs).any (fun f => decide (f.1 = name')) = fs.any fun f => decide (f.1 = name') := by
            rw [List.any_cons, hd, Bool.false_or]
          rw [he]
          simp [h1] at ih ⊢
          exact ih
        · by_cases h4 : f.1 = name'
          · simp [h1, h4, h2]
          · simp [h1, h4, h2] at ih ⊢
            exact ih
  unfold writeFile
  split
  · rename_i h
    rw [hmap]
    simp [h]
  · rename_i h
    unfold readFile
    rw [List.find?_append]
    by_cases h2 : name' = name
    · subst h2
      have : List.find? (fun f : Text × Text => decide (f.1 = name')) files = none := by
        rw [List.find?_eq_none]
        intro x hx hd
        exact h (List.any_eq_true.2 ⟨x, hx, hd⟩)
      simp [this]
    · have h3 : ¬ name = name' := fun e => h2 e.symm
      simp [h2, h3]

/-- What the call does when the periods are calculated: the Measured set becomes the loaded
set updated with the periods, the measured file is rewritten by `write_periods_to_file`. -/
theorem calculateFromMeasured_periods {V X : Type} (c : Calc V X) (name : Text) (fp : Bool)
    (dir : BikeDir) (params : Dict (Dict V)) (content : Text) (mp periods : Dict V)
    (h1 : Spec.measuredFile dir name = some content) (h2 : loadText c.io content = .ok mp)
    (h3 : fp = true ∨ checkForPeriod mp (isForkSplit mp) = true)
    (h4 : calcPeriodsForFiles c.io.mean (c.load (isForkSplit mp)) (matFiles (dir.rawData.getD [])) = .ok periods) :
    let r := calculateFromMeasured c name fp dir params
    Spec.measuredFile r.1 name = some (writePeriods c.io content periods) ∧
    r.1.parameters = dir.parameters ∧
    r.2.1 = Dict.set params "Measured" (Dict.update mp periods) ∧
    r.2.2 = c.bench (Dict.update mp periods) := by
  have h3' : (fp || checkForPeriod mp (isForkSplit mp)) = true := by simpa using h3
  have : calculateFromMeasured c name fp dir params =
      ({ dir with rawData := some (writeFile (dir.rawData.getD []) (measuredName name)
          (writePeriods c.io content periods)) },
        Dict.set params "Measured" (Dict.update mp periods), c.bench (Dict.update mp periods)) := by
    unfold calculateFromMeasured
    dsimp only
    rw [readFile_measured, h1]
    dsimp only
    rw [h2]
    dsimp only
    rw [if_pos h3', h4]
  rw [this]
  refine ⟨?_, rfl, rfl, rfl⟩
  unfold Spec.measuredFile
  have := readFile_writeFile (dir.rawData.getD []) (measuredName name)
    (writePeriods c.io content periods) (measuredName name)
  simp only [Option.bind_some]
  rw [if_pos rfl] at this
  exact this

/-- **C37, partial.** When every period in the measured file is recalculated from the data
files, the rewritten file and the object agree: loading the file again gives every period of
the object (as printed and parsed) and every other parameter unchanged.  Missing: periods
that are in the file but not in the data files, see `C37_unmeasured_period_lost`. -/
theorem C37_file_matches_object_partial {V X : Type} (c : Calc V X) (name : Text) (fp : Bool)
    (dir : BikeDir) (params : Dict (Dict V)) (content : Text) (mp periods : Dict V) (back : V → V)
    (h1 : Spec.measuredFile dir name = some content) (h2 : loadText c.io content = .ok mp)
    (h3 : fp = true ∨ checkForPeriod mp (isForkSplit mp) = true)
    (h4 : calcPeriodsForFiles c.io.mean (c.load (isForkSplit mp)) (matFiles (dir.rawData.getD [])) = .ok periods)
    (hnl : content = [] ∨ content.getLast? = some '\n')
    (hn : periods.keys.Nodup)
    (hT : ∀ k ∈ periods.keys, k.toList.head? = some 'T')
    (hk : ∀ k ∈ periods.keys, Spec.KeyOK k)
    (hv : ∀ k v, periods.find? k = some v → Spec.ReadsBackAs c.io v (back v))
    (hall : ∀ k, k.toList.head? = some 'T' → mp.has k = true → periods.has k = true) :
    ∃ content' d mem, Spec.measuredFile (calculateFromMeasured c name fp dir params).1 name = some content' ∧
      loadText c.io content' = .ok d ∧
      (calculateFromMeasured c name fp dir params).2.1.find? "Measured" = some mem ∧
      (∀ k, k.toList.head? ≠ some 'T' → d.find? k = mem.find? k ∧ mem.find? k = mp.find? k) ∧
      ∀ k v, k.toList.head? = some 'T' → mem.find? k = some v → d.find? k = some (back v) := by
  obtain ⟨e1, _, e3, _⟩ := calculateFromMeasured_periods c name fp dir params content mp periods h1 h2 h3 h4
  obtain ⟨d, hd1, hd2, hd3⟩ := C36_reload c.io content periods mp back hnl h2 hk hv
  refine ⟨_, d, Dict.update mp periods, e1, hd1, by rw [e3]; simp, ?_, ?_⟩
  · intro k hkT
    have hno : periods.find? k = none := by
      rw [Dict.find?_eq_none_iff]
      exact fun h => hkT (hT k h)
    have : Dict.find? (Dict.update mp periods) k = mp.find? k := by
      rw [Dict.find?_update _ _ _ hn, hno]
    rw [hd2 k hkT, this]
    exact ⟨rfl, rfl⟩
  · intro k v hkT hmem
    rw [Dict.find?_update _ _ _ hn] at hmem
    cases hp : periods.find? k with
    | some v' =>
      rw [hp] at hmem
      simp only [Option.some.injEq] at hmem
      subst hmem
      exact hd3 k v' hkT hp
    | none =>
      exfalso
      rw [hp] at hmem
      have := hall k hkT ((Dict.has_iff_exists _ _).2 ⟨v, hmem⟩)
      simp [Dict.has, hp] at this

/-- **C37 fails in general.** The measured file holds the period `T1`, the data files give
only `T2`: after the calculation the object still uses `T1`, but it is gone from the file. -/
theorem C37_unmeasured_period_lost :
    let c : Calc ℕ Unit := ⟨toyIO, fun _ _ => .ok ("T2", 2), fun mp => .ok (mp, ())⟩
    let dir : BikeDir := ⟨none, some [(measuredName ['X'], ['T', '1', '=', '1', '\n']),
      (['A', '.', 'm', 'a', 't'], [])]⟩
    let r := calculateFromMeasured c ['X'] true dir []
    r.2.1.find? "Measured" = some [("T1", 1), ("T2", 2)] ∧
    Spec.measuredFile r.1 ['X'] = some ['T', '2', ' ', '=', ' ', '1', '1', '\n'] := by
  intro c dir r
  have hmat : matFiles (dir.rawData.getD []) = [(['A', '.', 'm', 'a', 't'], [])] := by
    simp [dir, matFiles, measuredName]
    rfl
  have := calculateFromMeasured_periods c ['X'] true dir [] ['T', '1', '=', '1', '\n'] [("T1", 1)] [("T2", 2)]
    rfl rfl (Or.inl rfl) (by rw [hmat]; rfl)
  obtain ⟨h1, _, h3, _⟩ := this
  refine ⟨?_, ?_⟩
  · show (calculateFromMeasured c ['X'] true dir []).2.1.find? "Measured" = _
    rw [h3]; rfl
  · show Spec.measuredFile (calculateFromMeasured c ['X'] true dir []).1 ['X'] = _
    rw [h1]; rfl

/-! ## C35: save_parameters -/

theorem join_splitOn (c : Char) (s : Text) : ((splitOn c s).intersperse [c]).flatten = s := by
  induction s with
  | nil => rfl
  | cons x s ih =>
    unfold splitOn
    have hne := splitOn_ne_nil c s
    split
    · rename_i h
      subst h
      cases hs : splitOn x s with
      | nil => exact absurd hs hne
      | cons p ps =>
        rw [hs] at ih
        rw [List.intersperse_cons_cons]
        simp only [List.flatten_cons, List.nil_append, List.singleton_append]
        rw [ih]
    · cases hs : splitOn c s with
      | nil => exact absurd hs hne
      | cons p ps =>
        rw [hs] at ih
        cases ps with
        | nil => simp at ih ⊢; exact ih
        | cons q qs =>
          rw [List.intersperse_cons_cons] at ih ⊢
          simp only [List.flatten_cons, List.cons_append] at ih ⊢
          rw [ih]

theorem splitOn_append_sep (c : Char) (a b : Text) (hb : c ∉ b) :
    splitOn c (a ++ c :: b) = splitOn c a ++ [b] := by
  induction a with
  | nil => simp [splitOn, splitOn_not_mem c b hb]
  | cons x a ih =>
    rw [List.cons_append]
    unfold splitOn
    split
    · rw [ih]; rfl
    · rw [ih]
      cases hs : splitOn c a with
      | nil => exact absurd hs (splitOn_ne_nil c a)
      | cons p ps => rfl

/-- Cutting the extension: the last dot and what follows. -/
theorem splitext_append (root ext : Text) (h2 : '.' ∉ ext) (h3 : ∃ c ∈ root, c ≠ '.') :
    splitext (root ++ '.' :: ext) = root := by
  unfold splitext
  rw [splitOn_append_sep '.' root ext h2]
  dsimp only
  rw [List.dropLast_concat, join_splitOn]
  obtain ⟨c, hc, hne⟩ := h3
  have h1 : ¬ root.all (fun c => decide (c = '.')) = true := by
    intro h
    rw [List.all_eq_true] at h
    exact hne (by simpa using h c hc)
  have h4 : 0 < (splitOn '.' root).length := List.length_pos_iff.2 (splitOn_ne_nil '.' root)
  rw [if_neg]
  rintro (h | h)
  · rw [List.length_append] at h
    simp only [List.length_cons, List.length_nil] at h
    omega
  · exact h1 h

/-- **C35.** The file of the i-th set is named after the bicycle and all sets saved so far,
each followed by `.txt`. -/
theorem C35_file_names (name : Text) (psets : List String) (i : ℕ) (hi : i < psets.length) :
    (saveNames name psets)[i]? = some
      (name ++ (psets.take (i + 1)).flatMap fun p => p.toList ++ ['.', 't', 'x', 't']) := by
  induction psets generalizing name i with
  | nil => simp at hi
  | cons p psets ih =>
    cases i with
    | zero => simp [saveNames]
    | succ i =>
      have := ih (name ++ p.toList ++ ['.', 't', 'x', 't']) i (by simpa using hi)
      simp only [saveNames, List.getElem?_cons_succ]
      rw [this]
      simp [List.flatMap_cons]

theorem setOf_words (ws : List Text) (ext : Text) (h0 : ws ≠ []) (h : ∀ w ∈ ws, Spec.CamelWord w)
    (he : '.' ∉ ext) : Spec.setOf (ws.flatten ++ '.' :: ext) =
      (match ws with | [_, p] => some (String.ofList p) | _ => none) := by
  have hex : ∃ c ∈ ws.flatten, c ≠ '.' := by
    cases ws with
    | nil => exact absurd rfl h0
    | cons w ws =>
      obtain ⟨u, l, r, rfl, hu, _⟩ := h w (by simp)
      exact ⟨u, by simp, by rintro rfl; exact absurd hu (by decide)⟩
  unfold Spec.setOf
  rw [splitext_append _ _ he hex]
  have := (C48_words_recovered ws h0 h).2
  have h2 : spaceOutList ws.flatten = ws := by
    have h3 : spaceOutCamelCase ws.flatten "list" = .ok (.inr (spaceOutList ws.flatten)) := by
      simp [spaceOutCamelCase]
    rw [h3] at this
    injection this with this
    injection this
  rw [h2]
  match ws with
  | [] => rfl
  | [_] => rfl
  | [_, _] => rfl
  | _ :: _ :: _ :: _ => rfl

theorem mem_writeFile (files : List (Text × Text)) (name content name' : Text)
    (h : name' = name ∨ ∃ f ∈ files, f.1 = name') : ∃ f ∈ writeFile files name content, f.1 = name' := by
  unfold writeFile
  split
  · rename_i ha
    have : ∃ f ∈ files, f.1 = name' := by
      rcases h with rfl | h
      · rw [List.any_eq_true] at ha
        obtain ⟨f, hf, hd⟩ := ha
        exact ⟨f, hf, by simpa using hd⟩
      · exact h
    obtain ⟨f, hf, he⟩ := this
    refine ⟨if f.1 = name then (name, content) else f, List.mem_map.2 ⟨f, hf, rfl⟩, ?_⟩
    split
    · rename_i h1; rw [← he, h1]
    · exact he
  · rcases h with rfl | ⟨f, hf, he⟩
    · exact ⟨(name', content), by simp, rfl⟩
    · exact ⟨f, by simp [hf], he⟩

theorem mem_writeFiles {W : Type} (es : List (Text × W)) (g : Text × W → Text) (name : Text) :
    ∀ files : List (Text × Text), (∃ e ∈ es, e.1 = name) ∨ (∃ f ∈ files, f.1 = name) →
      ∃ f ∈ es.foldl (fun fs e => writeFile fs e.1 (g e)) files, f.1 = name := by
  induction es with
  | nil => intro files h; simpa using h
  | cons e es ih =>
    intro files h
    rw [List.foldl_cons]
    apply ih
    rcases h with ⟨x, hx, hn⟩ | h
    · rcases List.mem_cons.1 hx with rfl | hx
      · right; exact mem_writeFile _ _ _ _ (Or.inl hn.symm)
      · left; exact ⟨x, hx, hn⟩
    · right; exact mem_writeFile _ _ _ _ (Or.inr h)

/-- **C35 fails for several sets.** A bicycle with two or more parameter sets (besides
Measured) saves its second set under a name of three words; no bicycle can be constructed
from the directory afterwards. -/
theorem C35_two_sets_break_the_directory {V X H : Type} (c : Calc V X) (name : Text)
    (parameters : Dict (Dict V)) (files : List (Text × Text)) (raw : Option (List (Text × Text)))
    (p q : String) (rest : List String) (force fp : Bool)
    (hn : Spec.CamelWord name) (hp : Spec.CamelWord p.toList) (hq : Spec.CamelWord q.toList)
    (hs : savedSets parameters = p :: q :: rest) :
    ∃ e, initBicycle (X := X) (H := H) c name force fp
      ⟨some (saveParameters c.io name parameters files), raw⟩ =
        (⟨some (saveParameters c.io name parameters files), raw⟩, .error e) := by
  have hq' : ∃ f ∈ saveParameters c.io name parameters files,
      f.1 = name ++ p.toList ++ ['.', 't', 'x', 't'] ++ q.toList ++ ['.', 't', 'x', 't'] := by
    unfold saveParameters
    dsimp only
    rw [hs]
    have := mem_writeFiles ((saveNames name (p :: q :: rest)).zip (p :: q :: rest))
      (fun e => writeText c.io ((Dict.find? parameters e.2).getD []))
      (name ++ p.toList ++ ['.', 't', 'x', 't'] ++ q.toList ++ ['.', 't', 'x', 't']) files
    exact this (Or.inl ⟨(_, q), by simp [saveNames], rfl⟩)
  obtain ⟨f, hf, he⟩ := hq'
  refine C34_stray_file c name force fp _ f hf ?_
  rw [he]
  have hw : Spec.CamelWord (p.toList ++ ['.', 't', 'x', 't']) := by
    obtain ⟨u, l, r, h1, h2, h3, h4, h5⟩ := hp
    refine ⟨u, l, r ++ ['.', 't', 'x', 't'], by simp [h1], h2, h3, ?_, ?_⟩
    · intro x hx
      rcases List.mem_append.1 hx with hx | hx
      · exact h4 x hx
      · exact (by decide : ∀ x ∈ ['.', 't', 'x', 't'], isUp x = false) x hx
    · intro x hx
      rcases List.mem_append.1 hx with hx | hx
      · exact h5 x hx
      · exact (by decide : ∀ x ∈ ['.', 't', 'x', 't'], isWs x = false) x hx
  have := setOf_words [name, p.toList ++ ['.', 't', 'x', 't'], q.toList] ['t', 'x', 't'] (by simp) (by
    intro w hw'
    simp only [List.mem_cons, List.not_mem_nil, or_false] at hw'
    rcases hw' with rfl | rfl | rfl
    · exact hn
    · exact hw
    · exact hq) (by decide)
  simpa using this

theorem loadPar_fold_ok {V : Type} (io : NumIO V) (files : List (Text × Text)) :
    ∀ acc : Dict (Dict V), (∀ f ∈ files, (Spec.setOf f.1).isSome ∧ ∃ d, loadText io f.2 = .ok d) →
      ∃ params, files.foldlM (loadParStep io) acc = .ok params := by
  induction files with
  | nil => intro acc _; exact ⟨acc, rfl⟩
  | cons f files ih =>
    intro acc h
    obtain ⟨h1, d, h2⟩ := h f (by simp)
    obtain ⟨k, hk⟩ := Option.isSome_iff_exists.1 h1
    rw [List.foldlM_cons, (loadParStep_ok io acc (Dict.set acc k d) f).2 ⟨k, d, hk, h2, rfl⟩]
    exact ih _ fun g hg => h g (List.mem_cons_of_mem _ hg)

theorem mem_of_writeFile (files : List (Text × Text)) (name content : Text) (f : Text × Text)
    (h : f ∈ writeFile files name content) : f = (name, content) ∨ (f ∈ files ∧ f.1 ≠ name) := by
  unfold writeFile at h
  split at h
  · rw [List.mem_map] at h
    obtain ⟨g, hg, he⟩ := h
    split at he
    · left; exact he.symm
    · rename_i h1; right; subst he; exact ⟨hg, h1⟩
  · rename_i hn
    rcases List.mem_append.1 h with h | h
    · right
      refine ⟨h, fun he => hn (List.any_eq_true.2 ⟨f, h, by simp [he]⟩)⟩
    · left; simpa using h

/-- **C35, partial.** A bicycle with one parameter set (besides Measured) saves it to one
file; loading the directory again succeeds and gives that set with every value printed and
parsed once, whatever other loadable files are there, as long as none of them stands for the
same set.  Missing: two or more sets, see `C35_two_sets_break_the_directory`. -/
theorem C35_single_set_roundtrip_partial {V : Type} (io : NumIO V) (name : Text)
    (parameters : Dict (Dict V)) (files : List (Text × Text)) (raw : Option (List (Text × Text)))
    (p : String) (par : Dict V) (back : V → V)
    (hn : Spec.CamelWord name) (hp : Spec.CamelWord p.toList)
    (hs : savedSets parameters = [p]) (hpar : parameters.find? p = some par)
    (hnd : par.keys.Nodup) (hk : ∀ k ∈ par.keys, Spec.KeyOK k)
    (hv : ∀ k v, par.find? k = some v → Spec.ReadsBackAs io v (back v))
    (hgood : ∀ f ∈ files, (Spec.setOf f.1).isSome ∧ ∃ d, loadText io f.2 = .ok d)
    (hother : ∀ f ∈ files, f.1 ≠ name ++ p.toList ++ ['.', 't', 'x', 't'] → Spec.setOf f.1 ≠ some p) :
    ∃ params d, loadParameterSets io ⟨some (saveParameters io name parameters files), raw⟩ = .ok params ∧
      params.find? p = some d ∧ ∀ k, d.find? k = (par.find? k).map back := by
  have hname : Spec.setOf (name ++ p.toList ++ ['.', 't', 'x', 't']) = some p := by
    have := setOf_words [name, p.toList] ['t', 'x', 't'] (by simp) (by
      intro w hw
      simp only [List.mem_cons, List.not_mem_nil, or_false] at hw
      rcases hw with rfl | rfl
      · exact hn
      · exact hp) (by decide)
    simpa using this
  obtain ⟨d, hd1, _, hd3⟩ := C44_write_load io par back hnd hk hv
  have hfiles : saveParameters io name parameters files =
      writeFile files (name ++ p.toList ++ ['.', 't', 'x', 't']) (writeText io par) := by
    unfold saveParameters
    dsimp only
    rw [hs]
    simp [saveNames, hpar]
  have hall : ∀ f ∈ saveParameters io name parameters files,
      (Spec.setOf f.1).isSome ∧ ∃ d, loadText io f.2 = .ok d := by
    intro f hf
    rw [hfiles] at hf
    rcases mem_of_writeFile _ _ _ _ hf with rfl | ⟨h, _⟩
    · exact ⟨by rw [hname]; rfl, d, hd1⟩
    · exact hgood f h
  obtain ⟨params, hload⟩ := loadPar_fold_ok io _ [] hall
  have hload' : loadParameterSets io ⟨some (saveParameters io name parameters files), raw⟩ = .ok params := hload
  have hsets := (C34_loaded_sets io _ params hload').2 p
  have hlast : Spec.lastFile (saveParameters io name parameters files) p = some (writeText io par) := by
    unfold Spec.lastFile
    cases hf : (saveParameters io name parameters files).reverse.find?
        (fun f => decide (Spec.setOf f.1 = some p)) with
    | none =>
      exfalso
      rw [List.find?_eq_none] at hf
      obtain ⟨f, hm, he⟩ := mem_writeFile files (name ++ p.toList ++ ['.', 't', 'x', 't']) (writeText io par)
        (name ++ p.toList ++ ['.', 't', 'x', 't']) (Or.inl rfl)
      rw [← hfiles] at hm
      exact hf f (List.mem_reverse.2 hm) (by rw [he, hname]; simp)
    | some f =>
      have h1 := List.find?_some hf
      have h2 := List.mem_reverse.1 (List.mem_of_find?_eq_some hf)
      rw [hfiles] at h2
      rcases mem_of_writeFile _ _ _ _ h2 with rfl | ⟨h, hne⟩
      · rfl
      · exact absurd (by simpa using h1) (hother f h hne)
  have hsets' : ∃ d, loadText io (writeText io par) = .ok d ∧ params.find? p = some d := by
    have h3 : Spec.lastFile ((BikeDir.mk (some (saveParameters io name parameters files)) raw).parameters.getD []) p
        = some (writeText io par) := hlast
    rw [h3] at hsets
    exact hsets
  obtain ⟨d', h4, h5⟩ := hsets'
  rw [hd1] at h4
  injection h4 with h4
  subst h4
  exact ⟨params, d, hload', h5, hd3⟩

/-- non-vacuity of C35: the words and the set lists exist. -/
example : Spec.CamelWord ['B', 'e', 'n', 'c', 'h'] ∧
    savedSets [("Bench", [("w", (1 : ℕ))]), ("Measured", [])] = ["Bench"] ∧
    savedSets [("Bench", [("w", (1 : ℕ))]), ("Measured", []), ("Other", [])] = ["Bench", "Other"] ∧
    saveNames ['A', 'b'] ["Be", "Ot"] =
      [['A', 'b', 'B', 'e', '.', 't', 'x', 't'],
       ['A', 'b', 'B', 'e', '.', 't', 'x', 't', 'O', 't', '.', 't', 'x', 't']] := by
  refine ⟨⟨'B', 'e', _, rfl, by decide, by decide, by decide, by decide⟩, ?_, ?_, ?_⟩
  · simp [savedSets, Dict.keys]
  · simp [savedSets, Dict.keys]
  · simp [saveNames]

/-! ## C42 -/

/-- **C42.** `nominal=True` returns the nominal values of what `nominal=False` returns, any
other value is rejected, and the effect on the stored parameters is the same for all three. -/
theorem C42_nominal {A : Type} (strip : A → A) (a r : A) :
    (selectNominal strip .no a = .ok r → selectNominal strip .yes a = .ok (strip r)) ∧
    selectNominal strip .other a = .error .valueError := by
  refine ⟨?_, rfl⟩
  intro h
  simp only [selectNominal, Except.ok.injEq] at h ⊢
  rw [h]

/-- **C42.** On a bicycle, the choice of `nominal` changes neither the stored parameters nor,
for plain numbers, the matrices; a value other than True and False fails with `ValueError`
(or with the error of the calculation) after the same changes. -/
theorem C42_canonical_same_effect (params : Dict (Dict ℝ)) :
    bikeCanonical params .yes = bikeCanonical params .no ∧
    (bikeCanonical params .other).1 = (bikeCanonical params .no).1 ∧
    (∀ m, (bikeCanonical params .no).2 = .ok m → (bikeCanonical params .other).2 = .error .valueError) ∧
    (∀ e, (bikeCanonical params .no).2 = .error e → (bikeCanonical params .other).2 = .error e) := by
  unfold bikeCanonical
  cases hb : Dict.get params "Benchmark" with
  | error e => simp
  | ok par =>
    dsimp only
    cases hr : (benchmarkParToCanonical par).2 with
    | error e => simp
    | ok m => simp [selectNominal]

/-- **C42.** Calculating the canonical matrices changes only the Benchmark set, and there
only the two wheel moments of inertia. -/
theorem C42_canonical_effect_on_bicycle (params : Dict (Dict ℝ)) (n : Nominal) :
    (∀ k, k ≠ "Benchmark" → (bikeCanonical params n).1.find? k = params.find? k) ∧
    ∀ par, params.find? "Benchmark" = some par →
      ∃ par', (bikeCanonical params n).1.find? "Benchmark" = some par' ∧
        ∀ k, k ≠ "IRzz" → k ≠ "IFzz" → par'.find? k = par.find? k := by
  unfold bikeCanonical
  cases hb : Dict.find? params "Benchmark" with
  | none => simp [Dict.get, hb]
  | some par =>
    simp only [Dict.get, hb]
    refine ⟨fun k hk => Dict.find?_set_of_ne _ _ (Ne.symm hk), ?_⟩
    intro par2 hp
    injection hp with hp
    subst hp
    refine ⟨_, Dict.find?_set_self _ _ _, ?_⟩
    intro k h1 h2
    exact C06_other_keys_untouched par k h1 h2

end BP
