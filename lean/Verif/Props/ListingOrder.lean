import Verif.Props.PendulumFiles

/-!
# C164: the order of the listings when a Bicycle object is made

`Bicycle.__init__` (main.py:73-149) lists the directories Parameters and RawData with `os.listdir`, which gives the names in an
arbitrary order.
-/

set_option linter.unusedSimpArgs false

namespace BP

open Spec

/-- **C164.** The order in which RawData is listed does not matter for the new object (or the exception), nor, up to their
order, for the files afterwards. -/
theorem C164_raw_data_order {V X H : Type} (c : Calc V X) (name : Text) (forceRaw forcePeriod : Bool)
    (pars : Option (List (Text × Text))) (raw raw' : List (Text × Text)) (hn : (raw.map Prod.fst).Nodup) (hp : raw.Perm raw') :
    (initBicycle (H := H) c name forceRaw forcePeriod ⟨pars, some raw⟩).2 =
      (initBicycle (H := H) c name forceRaw forcePeriod ⟨pars, some raw'⟩).2 ∧
    ∃ s s', (initBicycle (H := H) c name forceRaw forcePeriod ⟨pars, some raw⟩).1 = ⟨pars, some s⟩ ∧
      (initBicycle (H := H) c name forceRaw forcePeriod ⟨pars, some raw'⟩).1 = ⟨pars, some s'⟩ ∧ s.Perm s' := by
  have r := readFile_perm hn hp (measuredName name)
  have e : loadParameterSets c.io ⟨pars, some raw⟩ = loadParameterSets c.io ⟨pars, some raw'⟩ := rfl
  unfold initBicycle
  rw [← e]
  rcases loadParameterSets c.io ⟨pars, some raw⟩ with err | params
  · exact ⟨rfl, raw, raw', rfl, rfl, hp⟩
  simp only [Option.getD_some, ← r, Option.isSome_some]
  obtain ⟨h1, s, s', h2, h3, h4⟩ := C163_listing_order c name forcePeriod pars raw raw' params hn hp
  rcases hA : calculateFromMeasured c name forcePeriod ⟨pars, some raw⟩ params with ⟨d1, p1, x1⟩
  rcases hB : calculateFromMeasured c name forcePeriod ⟨pars, some raw'⟩ params with ⟨d2, p2, x2⟩
  rw [hA] at h1 h2
  rw [hB] at h1 h3
  simp only [Prod.mk.injEq] at h1 h2 h3
  obtain ⟨rfl, rfl⟩ := h1
  subst h2 h3
  by_cases c1 : ((forceRaw && true && (true && (readFile raw (measuredName name)).isSome)) ||
      !forceRaw && !Dict.has params "Benchmark") = true
  · simp only [c1, if_true]
    rcases x1 with err | ⟨par, ex⟩
    · exact ⟨rfl, s, s', rfl, rfl, h4⟩
    · exact ⟨rfl, s, s', rfl, rfl, h4⟩
  · simp only [c1, Bool.false_eq_true, if_false]
    by_cases c2 : (!forceRaw && Dict.has params "Benchmark") = true
    · simp only [c2, if_true]
      rcases h5 : readFile raw (measuredName name) with _ | content
      · exact ⟨rfl, raw, raw', rfl, rfl, hp⟩
      · simp only
        rcases loadText c.io content with err | mp
        · cases err <;> exact ⟨rfl, raw, raw', rfl, rfl, hp⟩
        · exact ⟨rfl, raw, raw', rfl, rfl, hp⟩
    · simp only [c2, Bool.false_eq_true, if_false]
      exact ⟨trivial, raw, raw', rfl, rfl, hp⟩

theorem lastFile_some {files : List (Text × Text)} (hs : files.Pairwise fun a b => Spec.setOf a.1 ≠ Spec.setOf b.1) {f : Text × Text}
    (hf : f ∈ files) {k : String} (hk : Spec.setOf f.1 = some k) : lastFile files k = some f.2 := by
  unfold lastFile
  have hr : files.reverse.Pairwise fun a b => Spec.setOf a.1 ≠ Spec.setOf b.1 :=
    List.pairwise_reverse.2 (hs.imp fun h => h.symm)
  have hm : f ∈ files.reverse := List.mem_reverse.2 hf
  generalize files.reverse = l at hr hm
  induction l with
  | nil => simp at hm
  | cons g l ih =>
    rw [List.find?_cons]
    rcases List.mem_cons.1 hm with rfl | hm'
    · simp [hk]
    · have : Spec.setOf g.1 ≠ some k := by rw [← hk]; exact (List.pairwise_cons.1 hr).1 f hm'
      simp only [this, decide_false]
      exact ih (List.pairwise_cons.1 hr).2 hm'

theorem lastFile_perm {files files' : List (Text × Text)} (hs : files.Pairwise fun a b => Spec.setOf a.1 ≠ Spec.setOf b.1)
    (hp : files.Perm files') (k : String) : lastFile files k = lastFile files' k := by
  have hs' : files'.Pairwise fun a b => Spec.setOf a.1 ≠ Spec.setOf b.1 := hp.pairwise hs fun h => Ne.symm h
  by_cases h : ∃ f ∈ files, Spec.setOf f.1 = some k
  · obtain ⟨f, hf, hk⟩ := h
    rw [lastFile_some hs hf hk, lastFile_some hs' (hp.mem_iff.1 hf) hk]
  · push Not at h
    have n : ∀ l : List (Text × Text), (∀ f ∈ l, Spec.setOf f.1 ≠ some k) → lastFile l k = none := fun l hl => by
      unfold lastFile
      rw [Option.map_eq_none_iff, List.find?_eq_none]
      intro f hf
      simpa using hl f (List.mem_reverse.1 hf)
    rw [n files h, n files' fun f hf => h f (hp.mem_iff.2 hf)]

theorem loadPar_succeeds {V : Type} (io : NumIO V) (files : List (Text × Text))
    (h : ∀ f ∈ files, (Spec.setOf f.1).isSome ∧ ∃ d, loadText io f.2 = .ok d) (acc : Dict (Dict V)) :
    ∃ params, files.foldlM (loadParStep io) acc = .ok params := by
  induction files generalizing acc with
  | nil => exact ⟨acc, rfl⟩
  | cons f files ih =>
    obtain ⟨h1, d, h2⟩ := h f (by simp)
    obtain ⟨k, hk⟩ := Option.isSome_iff_exists.1 h1
    have hs := (loadParStep_ok io acc _ f).2 ⟨k, d, hk, h2, rfl⟩
    obtain ⟨params, hp⟩ := ih (fun g hg => h g (List.mem_cons_of_mem _ hg)) (Dict.set acc k d)
    exact ⟨params, by rw [List.foldlM_cons, hs]; exact hp⟩

/-- **C164.** The order in which Parameters is listed does not matter either, when no two files stand for the same set: if the
sets load from one listing they load from every other, and each has the same content. -/
theorem C164_parameters_order {V : Type} (io : NumIO V) (files files' : List (Text × Text)) (raw raw' : Option (List (Text × Text)))
    (params : Dict (Dict V)) (hs : files.Pairwise fun a b => Spec.setOf a.1 ≠ Spec.setOf b.1) (hp : files.Perm files')
    (h : loadParameterSets io ⟨some files, raw⟩ = .ok params) :
    ∃ params', loadParameterSets io ⟨some files', raw'⟩ = .ok params' ∧ ∀ k, Dict.find? params' k = Dict.find? params k := by
  obtain ⟨h1, h2⟩ := C34_loaded_sets io _ params h
  simp only [Option.getD_some] at h1 h2
  obtain ⟨params', h'⟩ := loadPar_succeeds io files' (fun f hf => h1 f (hp.mem_iff.2 hf)) []
  have h'' : loadParameterSets io ⟨some files', raw'⟩ = .ok params' := h'
  refine ⟨params', h'', fun k => ?_⟩
  have k2 := (C34_loaded_sets io _ params' h'').2 k
  have k1 := h2 k
  simp only [Option.getD_some, ← lastFile_perm hs hp] at k2
  rcases hl : lastFile files k with _ | content
  · rw [hl] at k1 k2
    rw [k1, k2]
  · rw [hl] at k1 k2
    obtain ⟨d, e1, e2⟩ := k1
    obtain ⟨d', e1', e2'⟩ := k2
    rw [e2, e2', ← e1.symm.trans e1' |> Except.ok.inj]

/-- **C164 fails in general.** A file `XBenchmark.txt` and a file `YBenchmark.txt` in Parameters stand for the same set: which
one the object holds depends on the order of the listing. -/
theorem C164_same_set :
    let x : Text × Text := ("XBenchmark.txt".toList, ['w', '=', '1', '\n'])
    let y : Text × Text := ("YBenchmark.txt".toList, ['w', '=', '1', '1', '\n'])
    loadParameterSets toyIO ⟨some [x, y], none⟩ = .ok [("Benchmark", [("w", 2)])] ∧
    loadParameterSets toyIO ⟨some [y, x], none⟩ = .ok [("Benchmark", [("w", 1)])] := by
  decide

/-- non-vacuity of C164: two files of different sets -/
theorem example_two_sets :
    let x : Text × Text := ("XBenchmark.txt".toList, ['w', '=', '1', '\n'])
    let y : Text × Text := ("XBody.txt".toList, ['w', '=', '1', '1', '\n'])
    [x, y].Pairwise (fun a b => Spec.setOf a.1 ≠ Spec.setOf b.1) ∧
    loadParameterSets toyIO ⟨some [x, y], none⟩ = .ok [("Benchmark", [("w", 1)]), ("Body", [("w", 2)])] := by
  decide

end BP
