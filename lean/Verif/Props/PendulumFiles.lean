import Mathlib.Data.List.Sort
import Mathlib.Data.String.Basic
import Verif.Props.Bike

/-!
# C163: which pendulum files count, and in which order

`calculate_from_measured` (main.py:377-410) lists the directory RawData with `os.listdir`, which gives the names in an
arbitrary order.
-/

set_option linter.unusedSimpArgs false

namespace BP

namespace Spec

/-- The name ends in `.mat`. -/
def IsMat (name : Text) : Prop := ∃ stem : Text, name = stem ++ ".mat".toList

/-- The `.mat` files of a directory, each once, by ascending name. -/
structure MatFilesOf (raw files : List (Text × Text)) : Prop where
  mem : ∀ f, f ∈ files ↔ f ∈ raw ∧ IsMat f.1
  ascending : files.Pairwise fun a b => String.ofList a.1 < String.ofList b.1

end Spec

open Spec

theorem matFiles_pairwise (raw : List (Text × Text)) :
    (matFiles raw).Pairwise fun a b => String.ofList a.1 ≤ String.ofList b.1 := by
  have : Std.Total fun a b : Text × Text => String.ofList a.1 ≤ String.ofList b.1 := ⟨fun a b => le_total _ _⟩
  have : IsTrans (Text × Text) fun a b => String.ofList a.1 ≤ String.ofList b.1 := ⟨fun a b c => le_trans⟩
  exact List.pairwise_insertionSort _ _

theorem matFiles_mem (raw : List (Text × Text)) (f : Text × Text) : f ∈ matFiles raw ↔ f ∈ raw ∧ IsMat f.1 := by
  rw [matFiles, (List.perm_insertionSort _ _).mem_iff, List.mem_filter, List.isSuffixOf_iff_suffix]
  constructor
  · rintro ⟨h, t, e⟩
    exact ⟨h, t, e.symm⟩
  · rintro ⟨h, t, e⟩
    exact ⟨h, t, e.symm⟩

theorem matFiles_nodup {raw : List (Text × Text)} (hn : (raw.map Prod.fst).Nodup) : (matFiles raw).Nodup :=
  (List.perm_insertionSort _ _).nodup_iff.2 (hn.of_map.filter _)

theorem matFiles_eq {raw files : List (Text × Text)} (hn : (raw.map Prod.fst).Nodup) (h : MatFilesOf raw files) :
    matFiles raw = files := by
  have hfn : files.Nodup := h.ascending.imp fun {a b} hab e => by rw [e] at hab; exact lt_irrefl _ hab
  refine List.Perm.eq_of_pairwise (fun a b ha hb h1 h2 => ?_) (matFiles_pairwise raw) (h.ascending.imp le_of_lt)
    ((List.perm_ext_iff_of_nodup (matFiles_nodup hn) hfn).2 fun f => by rw [matFiles_mem, h.mem])
  have e : a.1 = b.1 := String.ofList_injective (le_antisymm h1 h2)
  exact List.inj_on_of_nodup_map hn ((matFiles_mem raw a).1 ha).1 ((h.mem b).1 hb).1 e

theorem matFiles_perm {raw raw' : List (Text × Text)} (hn : (raw.map Prod.fst).Nodup) (hp : raw.Perm raw') :
    matFiles raw = matFiles raw' := by
  have hn' : (raw'.map Prod.fst).Nodup := (hp.map _).nodup_iff.1 hn
  refine List.Perm.eq_of_pairwise (fun a b ha hb h1 h2 => ?_) (matFiles_pairwise raw) (matFiles_pairwise raw')
    ((List.perm_ext_iff_of_nodup (matFiles_nodup hn) (matFiles_nodup hn')).2 fun f => by
      rw [matFiles_mem, matFiles_mem, hp.mem_iff])
  have e : a.1 = b.1 := String.ofList_injective (le_antisymm h1 h2)
  exact List.inj_on_of_nodup_map hn ((matFiles_mem raw a).1 ha).1 (hp.mem_iff.2 ((matFiles_mem raw' b).1 hb).1) e

theorem readFile_perm {raw raw' : List (Text × Text)} (hn : (raw.map Prod.fst).Nodup) (hp : raw.Perm raw') (name : Text) :
    readFile raw name = readFile raw' name := by
  induction hp with
  | nil => rfl
  | cons x hp ih =>
    simp only [readFile, List.find?_cons] at ih ⊢
    split
    · rfl
    · exact ih (List.nodup_cons.1 hn).2
  | swap x y l =>
    simp only [readFile, List.find?_cons]
    simp only [List.map_cons, List.nodup_cons, List.mem_cons, not_or] at hn
    by_cases hx : x.1 = name <;> by_cases hy : y.1 = name
    · exact absurd (hy.trans hx.symm) hn.1.1
    · simp [hx, hy]
    · simp [hx, hy]
    · simp [hx, hy]
  | trans h1 h2 ih1 ih2 => exact (ih1 hn).trans (ih2 ((h1.map _).nodup_iff.1 hn))

theorem writeFile_perm {raw raw' : List (Text × Text)} (hp : raw.Perm raw') (name content : Text) :
    (writeFile raw name content).Perm (writeFile raw' name content) := by
  have e : (raw.any fun f => decide (f.1 = name)) = raw'.any fun f => decide (f.1 = name) := by
    rw [Bool.eq_iff_iff, List.any_eq_true, List.any_eq_true]
    exact ⟨fun ⟨x, h, k⟩ => ⟨x, hp.mem_iff.1 h, k⟩, fun ⟨x, h, k⟩ => ⟨x, hp.mem_iff.2 h, k⟩⟩
  unfold writeFile
  rw [e]
  split
  · exact hp.map _
  · exact hp.append_right _

/-- **C163.** The order in which the operating system lists the directory RawData does not matter: `calculate_from_measured`
returns the same (or raises the same exception), leaves the object with the same parameter sets, and leaves the same files. -/
theorem C163_listing_order {V X : Type} (c : Calc V X) (name : Text) (force : Bool) (pars : Option (List (Text × Text)))
    (raw raw' : List (Text × Text)) (params : Dict (Dict V)) (hn : (raw.map Prod.fst).Nodup) (hp : raw.Perm raw') :
    (calculateFromMeasured c name force ⟨pars, some raw⟩ params).2 =
      (calculateFromMeasured c name force ⟨pars, some raw'⟩ params).2 ∧
    ∃ s s', (calculateFromMeasured c name force ⟨pars, some raw⟩ params).1 = ⟨pars, some s⟩ ∧
      (calculateFromMeasured c name force ⟨pars, some raw'⟩ params).1 = ⟨pars, some s'⟩ ∧ s.Perm s' := by
  have r := readFile_perm hn hp (measuredName name)
  have m := matFiles_perm hn hp
  rcases h1 : readFile raw (measuredName name) with _ | content
  · rw [h1] at r
    simp only [calculateFromMeasured, Option.getD_some, h1, ← r]
    exact ⟨trivial, raw, raw', rfl, rfl, hp⟩
  rw [h1] at r
  rcases h2 : loadText c.io content with e | mp
  · simp only [calculateFromMeasured, Option.getD_some, h1, ← r, h2]
    exact ⟨trivial, raw, raw', rfl, rfl, hp⟩
  by_cases hb : (force || checkForPeriod mp (isForkSplit mp)) = true
  · rcases h3 : calcPeriodsForFiles c.io.mean (c.load (isForkSplit mp)) (matFiles raw) with e | periods
    · simp only [calculateFromMeasured, Option.getD_some, h1, ← r, h2, hb, if_true, ← m, h3]
      exact ⟨trivial, raw, raw', rfl, rfl, hp⟩
    · simp only [calculateFromMeasured, Option.getD_some, h1, ← r, h2, hb, if_true, ← m, h3]
      exact ⟨trivial, _, _, rfl, rfl, writeFile_perm hp _ _⟩
  · simp only [calculateFromMeasured, Option.getD_some, h1, ← r, h2, hb, if_false, Bool.false_eq_true]
    exact ⟨trivial, raw, raw', rfl, rfl, hp⟩

/-- **C163.** When the periods are calculated, the measured parameters hold for each experiment the mean of the periods of all
`.mat` files of that experiment, by ascending name, and every other entry of the text file; other files do not count. -/
theorem C163_periods {V X : Type} (c : Calc V X) (name : Text) (dir : BikeDir) (raw : List (Text × Text)) (params : Dict (Dict V))
    (content : Text) (mp : Dict V) (files : List (Text × Text)) (kts : List (String × V)) (hd : dir.rawData = some raw)
    (hn : (raw.map Prod.fst).Nodup) (h1 : readFile raw (measuredName name) = some content) (h2 : loadText c.io content = .ok mp)
    (hf : MatFilesOf raw files) (hk : files.map (c.load (isForkSplit mp)) = kts.map .ok) :
    ∃ mp', Dict.find? (calculateFromMeasured c name true dir params).2.1 "Measured" = some mp' ∧
      (calculateFromMeasured c name true dir params).2.2 = c.bench mp' ∧
      ∀ k, Dict.find? mp' k = if k ∈ kts.map Prod.fst then
        some (c.io.mean ((kts.filter fun e => decide (e.1 = k)).map Prod.snd)) else Dict.find? mp k := by
  obtain ⟨d, e1, e2, e3⟩ := C55_mean_per_experiment c.io.mean (c.load (isForkSplit mp)) files kts hk
  refine ⟨Dict.update mp d, ?_, ?_, fun k => ?_⟩
  · simp only [calculateFromMeasured, hd, Option.getD_some, h1, h2, Bool.true_or, if_true, matFiles_eq hn hf, e1]
    simp [Dict.find?_set]
  · simp only [calculateFromMeasured, hd, Option.getD_some, h1, h2, Bool.true_or, if_true, matFiles_eq hn hf, e1]
  · rw [Dict.find?_update, e3]
    by_cases hm : k ∈ kts.map Prod.fst
    · simp only [hm, if_true]
    · simp only [hm, if_false]
    · exact e2

/-- A directory with the measured file, two pendulum files, listed backwards, and a file whose name does not count. -/
def exRaw : List (Text × Text) :=
  [(['B', '.', 'm', 'a', 't'], ['b']), (measuredName ['X'], ['w', '=', '1', '\n']), (['C', 'm', 'a', 't'], []),
    (['A', '.', 'm', 'a', 't'], ['a'])]

/-- non-vacuity of C163: the two files by name -/
theorem example_mat_files : (exRaw.map Prod.fst).Nodup ∧
    MatFilesOf exRaw [(['A', '.', 'm', 'a', 't'], ['a']), (['B', '.', 'm', 'a', 't'], ['b'])] := by
  refine ⟨by decide, ⟨fun f => ?_, ?_⟩⟩
  · have key : ∀ n : Text, IsMat n ↔ ['.', 'm', 'a', 't'].isSuffixOf n = true := fun n => by
      rw [List.isSuffixOf_iff_suffix]
      exact ⟨fun ⟨t, e⟩ => ⟨t, e.symm⟩, fun ⟨t, e⟩ => ⟨t, e.symm⟩⟩
    rw [key]
    constructor
    · intro h
      simp only [List.mem_cons, List.not_mem_nil, or_false] at h
      rcases h with rfl | rfl <;> decide
    · rintro ⟨h, k⟩
      simp only [exRaw, List.mem_cons, List.not_mem_nil, or_false] at h
      rcases h with rfl | rfl | rfl | rfl
      · simp
      · exact absurd k (by decide)
      · exact absurd k (by decide)
      · simp
  · simp only [List.pairwise_cons, List.mem_singleton, forall_eq, List.not_mem_nil, false_imp_iff, implies_true, and_true,
      List.Pairwise.nil]
    decide

end BP
