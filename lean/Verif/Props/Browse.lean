import Verif.Model.Browse
import Verif.Props.App
import Verif.Props.Bike

/-!
# C139: the web app shows what is in the file
-/

namespace BP

open Real

/-- The number that stands for a value: without its uncertainty. -/
def Spec.plain : PVal → Option ℝ
  | .num x => some x
  | .ufloat n _ => some n
  | .seq _ => none

theorem loadText_nodup {V : Type} (io : NumIO V) (content : Text) (d : Dict V) (h : loadText io content = .ok d) :
    d.keys.Nodup := by
  unfold loadText at h
  generalize textLines content = ls at h
  have key : ∀ (ls : List Text) (acc : Dict V), acc.keys.Nodup → ls.foldlM (loadLine io) acc = .ok d → d.keys.Nodup := by
    intro ls
    induction ls with
    | nil =>
      intro acc hn h
      have h' : (Except.ok acc : Except PyErr (Dict V)) = .ok d := h
      injection h' with h'
      exact h' ▸ hn
    | cons l ls ih =>
      intro acc hn h
      rw [List.foldlM_cons] at h
      cases hl : loadLine io acc l with
      | error e => rw [hl] at h; cases h
      | ok a =>
        rw [hl] at h
        refine ih a ?_ h
        unfold loadLine at hl
        split at hl
        · injection hl with hl; exact hl ▸ hn
        · dsimp only at hl
          split at hl
          · cases hl
          · split at hl
            · cases hl
            · injection hl with hl
              rw [← hl]
              exact Dict.nodup_set _ _ _ hn
  exact key ls [] (by simp [Dict.keys]) h

theorem find?_mem {V : Type} (d : Dict V) (k : String) (v : V) (hn : d.keys.Nodup) (h : (k, v) ∈ d) :
    d.find? k = some v := by
  induction d with
  | nil => simp at h
  | cons e d ih =>
    obtain ⟨k', v'⟩ := e
    have hn' : k' ∉ d.map Prod.fst ∧ (d.map Prod.fst).Nodup := by simpa [Dict.keys] using hn
    rw [Dict.find?_cons]
    rcases List.mem_cons.1 h with e | e
    · injection e with e1 e2
      rw [if_pos e1.symm, e2]
    · rw [if_neg]
      · exact ih hn'.2 e
      · intro e3
        exact hn'.1 (List.mem_map.2 ⟨(k, v), e, e3.symm⟩)

/-- Removing the uncertainties of numbers succeeds. -/
theorem remove_numbers (d : Dict PVal) (h : ∀ e ∈ d, ∀ l, e.2 ≠ .seq l) : ∃ d', removeUncertainties d = .ok d' := by
  unfold removeUncertainties
  suffices h : ∀ acc : Dict PVal, ∃ d', d.foldlM (fun acc kv =>
      match removeUncertainty kv.2 with
      | .error e => .error e
      | .ok v => .ok (Dict.set acc kv.1 v)) acc = (.ok d' : Except PyErr (Dict PVal)) from h []
  induction d with
  | nil => exact fun acc => ⟨acc, rfl⟩
  | cons e d ih =>
    intro acc
    have ih := ih fun e he => h e (List.mem_cons_of_mem _ he)
    rw [List.foldlM_cons]
    obtain ⟨k, v⟩ := e
    cases v with
    | ufloat n s => exact ih _
    | num x => exact ih _
    | seq l => exact (h (k, .seq l) (by simp) l rfl).elim

theorem numbers_find? (d d' : Dict PVal)
    (h : List.Forall₂ (fun e e' => e.1 = e'.1 ∧ Spec.NominalOf e.2 e'.2) d d') (k : String)
    (hs : ∀ e ∈ d, ∀ l, e.2 ≠ .seq l) :
    (numbers d').find? k = (d.find? k).bind Spec.plain := by
  induction h with
  | nil => rfl
  | @cons e e' d d' he _ ih =>
    have ih := ih fun e he => hs e (List.mem_cons_of_mem _ he)
    obtain ⟨k1, v⟩ := e
    obtain ⟨k2, v'⟩ := e'
    obtain ⟨e1, e2⟩ := he
    dsimp only at e1 e2
    subst e1
    unfold numbers at ih ⊢
    rw [List.filterMap_cons, Dict.find?_cons]
    cases e2 with
    | ufloat n s =>
      dsimp only
      rw [Dict.find?_cons]
      split
      · rfl
      · exact ih
    | num x =>
      dsimp only
      rw [Dict.find?_cons]
      split
      · rfl
      · exact ih
    | seq l => exact (hs (k1, .seq _) List.mem_cons_self _ rfl).elim

/-- `new_par` for a bicycle with a saved file. -/
theorem newPar_saved {X : Type} (c : Calc PVal X) (name : Text) (dir dir' : BikeDir) (b : Bike PVal X Unit)
    (content : Text) (bench : Dict PVal)
    (hb : initBicycle c name false false dir = (dir', .ok b))
    (hfile : Spec.lastFile (dir.parameters.getD []) "Benchmark" = some content)
    (hload : loadText c.io content = .ok bench)
    (hnum : ∀ e ∈ bench, ∀ l, e.2 ≠ .seq l) :
    ∃ d, newPar c name dir = (dir, .ok d) ∧ ∀ k, (numbers d).find? k = (bench.find? k).bind Spec.plain := by
  obtain ⟨params, hl⟩ : ∃ params, loadParameterSets c.io dir = .ok params := by
    cases hl : loadParameterSets c.io dir with
    | error e =>
      unfold initBicycle at hb
      rw [hl] at hb
      simp at hb
    | ok params => exact ⟨params, rfl⟩
  have hno : ¬ Spec.Recalculates false dir name := by
    rintro (⟨h, -⟩ | ⟨-, h⟩)
    · simp at h
    · rw [hfile] at h; simp at h
  obtain ⟨-, -, h3, -⟩ := C34_construction c name false false dir dir' params b hl hb
  obtain ⟨hdir, hsets, -⟩ := h3 hno
  subst hdir
  have hbench : b.parameters.find? "Benchmark" = some bench := by
    rw [hsets "Benchmark" (by decide)]
    have := (C34_loaded_sets c.io _ params hl).2 "Benchmark"
    rw [hfile] at this
    obtain ⟨d, h1, h2⟩ := this
    rw [hload] at h1
    injection h1 with h1
    rw [h2, h1]
  obtain ⟨d, hd⟩ := remove_numbers bench hnum
  refine ⟨d, ?_, fun k => numbers_find? bench d (C47_remove_uncertainties bench d (loadText_nodup c.io content bench hload) hd) k hnum⟩
  unfold newPar
  rw [hb]
  dsimp only
  unfold Dict.get
  rw [hbench]
  exact congrArg _ hd

/-- **C139.** When a bicycle with a saved Benchmark file is chosen in the web app, every cell of the three tables shows the
number of that name in the file, without its uncertainty, the tilt in whole degrees; and nothing in the directory of the
bicycle changes. -/
theorem C139_app_shows_the_file {X : Type} (c : Calc PVal X) (name : Text) (dir dir' : BikeDir) (b : Bike PVal X Unit)
    (content : Text) (bench : Dict PVal) (lam : ℝ)
    (hb : initBicycle c name false false dir = (dir', .ok b))
    (hfile : Spec.lastFile (dir.parameters.getD []) "Benchmark" = some content)
    (hload : loadText c.io content = .ok bench)
    (hnum : ∀ e ∈ bench, ∀ l, e.2 ≠ .seq l)
    (file : String → Option ℝ) (hfl : ∀ k, file k = (bench.find? k).bind Spec.plain)
    (hlam : file "lam" = some lam) :
    populateChosen c name dir = (dir, .ok
      ([⟨"Radius [m]:", file "rF", file "rR"⟩,
        ⟨"Mass [kg]:", file "mF", file "mR"⟩,
        ⟨"Moment Ixx [kg*m²]:", file "IFxx", file "IRxx"⟩,
        ⟨"Moment Iyy [kg*m²]:", file "IFyy", file "IRyy"⟩],
       [⟨"Center of Mass X [m]:", file "xB", file "xH"⟩,
        ⟨"Center of Mass Z [m]:", file "zB", file "zH"⟩,
        ⟨"Total Mass [kg]:", file "mB", file "mH"⟩,
        ⟨"Moment Ixx [kg*m²]:", file "IBxx", file "IHxx"⟩,
        ⟨"Moment Iyy [kg*m²]:", file "IByy", file "IHyy"⟩,
        ⟨"Moment Izz [kg*m²]:", file "IBzz", file "IHzz"⟩,
        ⟨"Moment Ixz [kg*m²]:", file "IBxz", file "IHxz"⟩],
       [⟨"Wheel Base [m]:", file "w"⟩, ⟨"Trail [m]:", file "c"⟩,
        ⟨"Steer Axis Tilt [degrees]:", some (pyInt (lam * 180 / π) : ℝ)⟩,
        ⟨"Gravity [N/kg]:", file "g"⟩])) := by
  obtain ⟨d, h1, h2⟩ := newPar_saved c name dir dir' b content bench hb hfile hload hnum
  have h3 : ∀ k, (numbers d).find? k = file k := fun k => by rw [h2, hfl]
  have h4 := C74_tables_filled (numbers d) lam (by rw [h3]; exact hlam)
  unfold populateChosen
  simp only [h1]
  unfold populateTables at h4
  cases hg : generalTable (numbers d) with
  | error e => rw [hg] at h4; cases h4
  | ok g =>
    rw [hg] at h4
    refine Prod.ext rfl ?_
    refine Eq.trans (show _ = Except.ok (wheelTable (numbers d), frameTable (numbers d), g) from rfl) ?_
    refine Eq.trans h4 ?_
    simp only [h3]

/-- A laboratory whose numbers are all read as 1 with the uncertainty 2. -/
def exShop : Calc PVal Unit :=
  ⟨⟨fun _ => ['1'], fun _ => .ok (.ufloat 1 2), fun _ => .ok (.ufloat 1 2), fun l => l.headD (.num 0)⟩,
    fun _ _ => .error .valueError, fun _ => .error .valueError⟩

/-- The directory of a bicycle X with one saved file. -/
def exShopDir : BikeDir :=
  ⟨some [(['X', 'B', 'e', 'n', 'c', 'h', 'm', 'a', 'r', 'k', '.', 't', 'x', 't'], ['l', 'a', 'm', '=', '3', '\n'])], none⟩

/-- The hypotheses of C139 can be met. -/
example : ∃ (dir' : BikeDir) (b : Bike PVal Unit Unit) (content : Text) (bench : Dict PVal) (file : String → Option ℝ),
    initBicycle exShop ['X'] false false exShopDir = (dir', .ok b) ∧
    Spec.lastFile (exShopDir.parameters.getD []) "Benchmark" = some content ∧
    loadText exShop.io content = .ok bench ∧ (∀ e ∈ bench, ∀ l, e.2 ≠ .seq l) ∧
    (∀ k, file k = (bench.find? k).bind Spec.plain) ∧ file "lam" = some 1 := by
  refine ⟨exShopDir, ⟨[("Benchmark", [("lam", .ufloat 1 2)])], none, false, none, [], none⟩, ['l', 'a', 'm', '=', '3', '\n'],
    [("lam", .ufloat 1 2)], fun k => (Dict.find? [("lam", .ufloat 1 2)] k).bind Spec.plain, rfl, rfl, rfl, ?_, fun _ => rfl, rfl⟩
  intro e he l
  rw [List.mem_singleton] at he
  rw [he]
  simp

end BP
