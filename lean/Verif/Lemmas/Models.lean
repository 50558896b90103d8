import Verif.Spec.Overrides
import Verif.Props.Canonical
import Verif.Props.ParameterSets

/-!
# Running models.py on the heap

What the functions of `Model/Models` return and what they leave behind, as equations between
the heap program and plain functions of the stored parameters and the overrides.
-/

set_option linter.unusedSimpArgs false

namespace BP

open Matrix Spec

/-! ## The heap monad -/

namespace HM

variable {α β γ : Type}

theorem bind_eq (f : HM α) (k : α → HM β) : (f >>= k) = HM.bind f k := rfl

theorem bind_ok {f : HM α} {k : α → HM β} {h h' : Heap} {a : α} (hf : f h = (.ok a, h')) :
    (f >>= k) h = k a h' := by
  rw [bind_eq]; simp [HM.bind, hf]

theorem bind_error {f : HM α} {k : α → HM β} {h h' : Heap} {e : PyErr} (hf : f h = (.error e, h')) :
    (f >>= k) h = (.error e, h') := by
  rw [bind_eq]; simp [HM.bind, hf]

theorem load_run (r : ℕ) (h : Heap) : load r h = (.ok (h.getD r []), h) := rfl
theorem store_run (r : ℕ) (d : Dict MVal) (h : Heap) : store r d h = (.ok (), h.set r d) := rfl
theorem alloc_run (d : Dict MVal) (h : Heap) : alloc d h = (.ok h.length, h ++ [d]) := rfl
theorem pure_run (a : α) (h : Heap) : (HM.pure a) h = (.ok a, h) := rfl
theorem raise_run (e : PyErr) (h : Heap) : (HM.raise e : HM α) h = (.error e, h) := rfl

theorem ofExcept_run (x : Except PyErr α) (h : Heap) : ofExcept x h = (x, h) := by
  cases x <;> rfl

/-- The comprehension keeps an invariant of the heap that every element keeps, and returns
what the elements return. -/
theorem collect_run (f : γ → HM β) (res : γ → Except PyErr β) (P : Heap → Prop) (l : List γ)
    (hf : ∀ x ∈ l, ∀ h, P h → ∃ h', f x h = (res x, h') ∧ P h') (h : Heap) (hP : P h) :
    ∃ h', collect f l h = (l.mapM res, h') ∧ P h' := by
  induction l generalizing h with
  | nil => exact ⟨h, rfl, hP⟩
  | cons x xs ih =>
    obtain ⟨h1, e1, p1⟩ := hf x (by simp) h hP
    rw [List.mapM_cons]
    cases hr : res x with
    | error e =>
      refine ⟨h1, ?_, p1⟩
      rw [hr] at e1
      simp only [collect, HM.bind, e1]; rfl
    | ok b =>
      obtain ⟨h2, e2, p2⟩ := ih (fun y hy => hf y (by simp [hy])) h1 p1
      refine ⟨h2, ?_, p2⟩
      rw [hr] at e1
      simp only [collect, HM.bind, e1, e2]
      cases xs.mapM res <;> rfl

end HM

/-! ## Overrides -/

/-- The stored parameters as a dictionary on the heap. -/
def lift (stored : Dict SVal) : Dict MVal := stored.map fun e => (e.1, .num e.2)

theorem find?_lift (stored : Dict SVal) (k : String) :
    (lift stored).find? k = (stored.find? k).map .num := find?_map_key (fun _ => MVal.num) stored k

theorem has_lift (stored : Dict SVal) (k : String) : (lift stored).has k = stored.has k := by
  unfold Dict.has; rw [find?_lift]; cases stored.find? k <;> rfl

/-- One pass of the loop without the dictionary. -/
def pStep (known : String → Bool) (st : List String × Option ℕ) (kv : String × OVal) :
    Except PyErr (List String × Option ℕ) :=
  if known kv.1 then
    match kv.2 with
    | .num _ => .ok st
    | .unsized => .error .typeError
    | .arr xs =>
      if xs.length = st.2.getD xs.length then
        .ok (st.1 ++ [kv.1], some (st.2.getD xs.length))
      else .error .valueError
  else .ok st

/-- The value a known key gets. -/
def overridden (x : MVal) : Option OVal → MVal
  | some (.num y) => .num ⟨.pyFloat, y.val⟩
  | some (.arr ys) => .arr ys
  | some .unsized => x
  | none => x

theorem step_run (r : ℕ) (st : List String × Option ℕ) (kv : String × OVal) (h : Heap)
    (d : Dict MVal) (hr : h[r]? = some d) :
    ∃ d', overrideStep r st kv h = (pStep d.has st kv, h.set r d') ∧
      (∀ k, d'.has k = d.has k) ∧
      ∀ st', pStep d.has st kv = .ok st' →
        ∀ k, d'.find? k = (d.find? k).map fun x =>
          if kv.1 = k then overridden x (some kv.2) else x := by
  have hg : h.getD r [] = d := by simp [List.getD_eq_getElem?_getD, hr]
  have hsame : h.set r d = h := by
    apply List.ext_getElem?
    intro i
    rw [List.getElem?_set]
    by_cases hi : r = i
    · subst hi
      have : r < h.length := by
        by_contra hc
        rw [List.getElem?_eq_none (by omega)] at hr; cases hr
      simp [this, hr]
      rw [← Option.some_inj, ← List.getElem?_eq_getElem, hr]
    · simp [hi]
  obtain ⟨key, v⟩ := kv
  unfold overrideStep
  rw [HM.bind_ok (HM.load_run r h), hg]
  unfold pStep
  by_cases hk : d.has key = true
  · simp only [hk, if_true]
    have hset : ∀ (x : MVal) k, (d.set key x).has k = d.has k := by
      intro x k
      rw [Dict.has_set]
      by_cases e : key = k
      · subst e; simp [hk]
      · simp [e]
    have hfind : ∀ (y : MVal) k, (d.set key y).find? k = (d.find? k).map fun x =>
        if key = k then y else x := by
      intro y k
      rw [Dict.find?_set]
      by_cases e : key = k
      · subst e
        obtain ⟨x, hx⟩ := (Dict.has_iff_exists _ _).1 hk
        simp [hx]
      · simp [e]
    cases v with
    | num x =>
      refine ⟨d.set key (.num ⟨.pyFloat, x.val⟩), rfl, hset _, fun _ _ k => ?_⟩
      rw [hfind]; rfl
    | unsized => exact ⟨d, by rw [hsame]; rfl, fun _ => rfl, fun _ h => by cases h⟩
    | arr xs =>
      by_cases hl : xs.length = st.2.getD xs.length
      · refine ⟨d.set key (.arr xs), ?_, hset _, fun _ _ k => ?_⟩
        · simp only [if_pos hl]; rfl
        · rw [hfind]; rfl
      · refine ⟨d, ?_, fun _ => rfl, fun _ h => ?_⟩
        · simp only [if_neg hl]; rw [hsame]; rfl
        · simp only [if_neg hl] at h; cases h
  · simp only [hk, if_false, Bool.false_eq_true]
    refine ⟨d, ?_, fun _ => rfl, fun _ _ k => ?_⟩
    · rw [hsame]; rfl
    · by_cases e : key = k
      · subst e
        have : d.find? key = none := by
          cases hf : d.find? key with
          | none => rfl
          | some x => exact absurd ((Dict.has_iff_exists _ _).2 ⟨x, hf⟩) hk
        simp [this]
      · simp [e]

theorem loop_run (r : ℕ) (ov : Dict OVal) (st : List String × Option ℕ) (h : Heap)
    (d : Dict MVal) (hr : h[r]? = some d) (hn : ov.keys.Nodup) :
    ∃ d', HM.loop (overrideStep r) st ov h = (ov.foldlM (pStep d.has) st, h.set r d') ∧
      (∀ k, d'.has k = d.has k) ∧
      ∀ st', ov.foldlM (pStep d.has) st = .ok st' →
        ∀ k, d'.find? k = (d.find? k).map fun x => overridden x (ov.find? k) := by
  induction ov generalizing st h d with
  | nil =>
    refine ⟨d, ?_, fun _ => rfl, fun _ _ k => ?_⟩
    · have hsame : h.set r d = h := by
        apply List.ext_getElem?
        intro i
        rw [List.getElem?_set]
        by_cases hi : r = i
        · subst hi
          have : r < h.length := by
            by_contra hc
            rw [List.getElem?_eq_none (by omega)] at hr; cases hr
          simp [this, hr]
          rw [← Option.some_inj, ← List.getElem?_eq_getElem, hr]
        · simp [hi]
      rw [hsame]; rfl
    · cases d.find? k <;> simp [overridden]
  | cons kv ov ih =>
    obtain ⟨d1, e1, k1, f1⟩ := step_run r st kv h d hr
    rw [List.foldlM_cons]
    cases hp : pStep d.has st kv with
    | error e =>
      rw [hp] at e1
      refine ⟨d1, ?_, k1, fun _ h => ?_⟩
      · simp only [HM.loop, HM.bind, e1]; rfl
      · cases h
    | ok st1 =>
      rw [hp] at e1
      have hrl : r < h.length := by
        by_contra hc
        rw [List.getElem?_eq_none (by omega)] at hr; cases hr
      have hr1 : (h.set r d1)[r]? = some d1 := by
        rw [List.getElem?_set]; simp [hrl]
      have hk1 : d1.has = d.has := funext k1
      have hn' : (Dict.keys ov).Nodup ∧ kv.1 ∉ Dict.keys ov := by
        have : (kv :: ov).map Prod.fst = kv.1 :: ov.map Prod.fst := rfl
        unfold Dict.keys at hn
        rw [this] at hn
        exact ⟨(List.nodup_cons.1 hn).2, (List.nodup_cons.1 hn).1⟩
      obtain ⟨d2, e2, k2, f2⟩ := ih st1 (h.set r d1) d1 hr1 hn'.1
      refine ⟨d2, ?_, fun k => (k2 k).trans (k1 k), fun st' hs k => ?_⟩
      · simp only [HM.loop, HM.bind, e1]
        rw [e2, hk1]
        simp [List.set_set, bind, Except.bind]
      · have hs' : ov.foldlM (pStep d1.has) st1 = .ok st' := by
          rw [hk1]; exact hs
        rw [f2 st' hs' k, f1 st1 hp k]
        obtain ⟨key, v⟩ := kv
        rw [Dict.find?_cons]
        by_cases e : key = k
        · subst e
          have : Dict.find? ov key = none := (Dict.find?_eq_none_iff _ _).2 hn'.2
          rw [this]
          cases d.find? key <;> simp [overridden]
        · cases d.find? k <;> simp [e]

/-- The known overrides that are arrays, in order. -/
def knownArrays (known : String → Bool) (ov : Dict OVal) : List (String × List SVal) :=
  ov.filterMap fun e => match e.2 with
    | .arr xs => if known e.1 then some (e.1, xs) else none
    | _ => none

theorem mem_knownArrays {known : String → Bool} {ov : Dict OVal} {k : String} {xs : List SVal} :
    (k, xs) ∈ knownArrays known ov ↔ (k, OVal.arr xs) ∈ ov ∧ known k = true := by
  unfold knownArrays
  rw [List.mem_filterMap]
  constructor
  · rintro ⟨⟨k', v⟩, hm, he⟩
    cases v with
    | num x => simp at he
    | unsized => simp at he
    | arr ys =>
      by_cases hk : known k' = true
      · simp [hk] at he; obtain ⟨rfl, rfl⟩ := he; exact ⟨hm, hk⟩
      · simp [hk] at he
  · rintro ⟨hm, hk⟩
    exact ⟨(k, .arr xs), hm, by simp [hk]⟩

theorem fold_ok (known : String → Bool) (ov : Dict OVal) (n : ℕ) (st : List String × Option ℕ)
    (hst : st.2 = none ∨ st.2 = some n)
    (hs : ∀ k, known k = true → (k, OVal.unsized) ∉ ov)
    (hl : ∀ a ∈ knownArrays known ov, a.2.length = n) :
    ov.foldlM (pStep known) st = .ok (st.1 ++ (knownArrays known ov).map Prod.fst,
      if knownArrays known ov = [] then st.2 else some n) := by
  induction ov generalizing st with
  | nil => simp [knownArrays, pure, Except.pure]
  | cons kv ov ih =>
    obtain ⟨key, v⟩ := kv
    rw [List.foldlM_cons]
    have hs' : ∀ k, known k = true → (k, OVal.unsized) ∉ ov := fun k hk hm => hs k hk (by simp [hm])
    by_cases hk : known key = true
    · cases v with
      | num x =>
        have e : knownArrays known ((key, .num x) :: ov) = knownArrays known ov := by
          simp [knownArrays, List.filterMap_cons]
        rw [e] at hl ⊢
        simp only [pStep, hk, if_true, bind, Except.bind]
        exact ih st hst hs' hl
      | unsized => exact absurd (by simp) (hs key hk)
      | arr xs =>
        have e : knownArrays known ((key, .arr xs) :: ov) = (key, xs) :: knownArrays known ov := by
          simp [knownArrays, List.filterMap_cons, hk]
        rw [e] at hl ⊢
        have hx : xs.length = n := hl (key, xs) (by simp)
        have hg : st.2.getD n = n := by
          rcases hst with h0 | h0 <;> simp [h0]
        simp only [pStep, hk, if_true, hx, hg, bind, Except.bind]
        rw [ih (st.1 ++ [key], some n) (Or.inr rfl) hs' fun a ha => hl a (by simp [ha])]
        simp
    · have e : knownArrays known ((key, v) :: ov) = knownArrays known ov := by
        cases v <;> simp [knownArrays, List.filterMap_cons, hk]
      rw [e] at hl ⊢
      simp only [pStep, hk, if_false, bind, Except.bind, Bool.false_eq_true]
      exact ih st hst hs' hl

theorem fold_inv (known : String → Bool) (ov : Dict OVal) (st st' : List String × Option ℕ)
    (h : ov.foldlM (pStep known) st = .ok st') :
    (∀ k, known k = true → (k, OVal.unsized) ∉ ov) ∧
    (∀ n, st.2 = some n → st'.2 = some n) ∧
    ∀ a ∈ knownArrays known ov, st'.2 = some a.2.length := by
  induction ov generalizing st with
  | nil =>
    simp [pure, Except.pure] at h; subst h
    simp [knownArrays]
  | cons kv ov ih =>
    obtain ⟨key, v⟩ := kv
    rw [List.foldlM_cons] at h
    by_cases hk : known key = true
    · cases v with
      | num x =>
        have e : knownArrays known ((key, .num x) :: ov) = knownArrays known ov := by
          simp [knownArrays, List.filterMap_cons]
        simp only [pStep, hk, if_true, bind, Except.bind] at h
        obtain ⟨a, b, c⟩ := ih st h
        rw [e]
        refine ⟨fun k hk' hm => ?_, b, c⟩
        rcases List.mem_cons.1 hm with he | hm
        · cases he
        · exact a k hk' hm
      | unsized => simp [pStep, hk, bind, Except.bind] at h
      | arr xs =>
        have e : knownArrays known ((key, .arr xs) :: ov) = (key, xs) :: knownArrays known ov := by
          simp [knownArrays, List.filterMap_cons, hk]
        simp only [pStep, hk, if_true, bind, Except.bind] at h
        by_cases hl : xs.length = st.2.getD xs.length
        · rw [if_pos hl] at h
          obtain ⟨a, b, c⟩ := ih _ h
          rw [e]
          refine ⟨fun k hk' hm => ?_, fun n hn => ?_, fun a ha => ?_⟩
          · rcases List.mem_cons.1 hm with he | hm
            · cases he
            · exact a k hk' hm
          · exact b n (by simp [hn])
          · rcases List.mem_cons.1 ha with rfl | ha
            · exact b _ (by simp; exact hl.symm)
            · exact c a ha
        · rw [if_neg hl] at h; cases h
    · have e : knownArrays known ((key, v) :: ov) = knownArrays known ov := by
        cases v <;> simp [knownArrays, List.filterMap_cons, hk]
      simp only [pStep, hk, if_false, bind, Except.bind, Bool.false_eq_true] at h
      obtain ⟨a, b, c⟩ := ih st h
      rw [e]
      refine ⟨fun k hk' hm => ?_, b, c⟩
      rcases List.mem_cons.1 hm with he | hm
      · cases he; exact hk hk'
      · exact a k hk' hm

theorem fold_error (known : String → Bool) (ov : Dict OVal) (st : List String × Option ℕ)
    (e : PyErr) (h : ov.foldlM (pStep known) st = .error e) :
    (e = .typeError ∧ ∃ k, known k = true ∧ (k, OVal.unsized) ∈ ov) ∨
    (e = .valueError ∧ ∃ a ∈ knownArrays known ov,
      (∃ n, st.2 = some n ∧ a.2.length ≠ n) ∨
      ∃ b ∈ knownArrays known ov, a.2.length ≠ b.2.length) := by
  induction ov generalizing st with
  | nil => simp [pure, Except.pure] at h
  | cons kv ov ih =>
    obtain ⟨key, v⟩ := kv
    rw [List.foldlM_cons] at h
    by_cases hk : known key = true
    · cases v with
      | num x =>
        have e : knownArrays known ((key, .num x) :: ov) = knownArrays known ov := by
          simp [knownArrays, List.filterMap_cons]
        simp only [pStep, hk, if_true, bind, Except.bind] at h
        rw [e]
        rcases ih st h with ⟨h1, k, h2, h3⟩ | h1
        · exact Or.inl ⟨h1, k, h2, by simp [h3]⟩
        · exact Or.inr h1
      | unsized =>
        simp [pStep, hk, bind, Except.bind] at h
        exact Or.inl ⟨h.symm, key, hk, by simp⟩
      | arr xs =>
        have e' : knownArrays known ((key, .arr xs) :: ov) = (key, xs) :: knownArrays known ov := by
          simp [knownArrays, List.filterMap_cons, hk]
        simp only [pStep, hk, if_true, bind, Except.bind] at h
        rw [e']
        by_cases hl : xs.length = st.2.getD xs.length
        · rw [if_pos hl] at h
          rcases ih _ h with ⟨h1, k, h2, h3⟩ | ⟨h1, a, ha, h2⟩
          · exact Or.inl ⟨h1, k, h2, by simp [h3]⟩
          · refine Or.inr ⟨h1, a, by simp [ha], ?_⟩
            rcases h2 with ⟨n, hn, hne⟩ | ⟨b, hb, hne⟩
            · right
              refine ⟨(key, xs), by simp, ?_⟩
              simp only [Option.some.injEq] at hn
              rw [← hn, ← hl] at hne; exact hne
            · exact Or.inr ⟨b, by simp [hb], hne⟩
        · rw [if_neg hl] at h
          simp only [Except.error.injEq] at h
          refine Or.inr ⟨h.symm, (key, xs), by simp, ?_⟩
          cases hst : st.2 with
          | none => simp [hst] at hl
          | some n => exact Or.inl ⟨n, rfl, by simpa [hst] using hl⟩
    · have e' : knownArrays known ((key, v) :: ov) = knownArrays known ov := by
        cases v <;> simp [knownArrays, List.filterMap_cons, hk]
      simp only [pStep, hk, if_false, bind, Except.bind, Bool.false_eq_true] at h
      rw [e']
      rcases ih st h with ⟨h1, k, h2, h3⟩ | h1
      · exact Or.inl ⟨h1, k, h2, by simp [h3]⟩
      · exact Or.inr h1

/-- The object `s` of the heap is the stored parameter set. -/
def Holds (h : Heap) (s : ℕ) (stored : Dict SVal) : Prop := h[s]? = some (lift stored)

theorem Holds.append {h : Heap} {s : ℕ} {stored : Dict SVal} (hs : Holds h s stored)
    (ext : List (Dict MVal)) : Holds (h ++ ext) s stored := by
  unfold Holds at *
  have : s < h.length := by
    by_contra hc
    rw [List.getElem?_eq_none (by omega)] at hs; cases hs
  rw [List.getElem?_append_left this, hs]

/-- `_parse_parameter_overrides`, run. -/
theorem parse_run (h : Heap) (s : ℕ) (stored : Dict SVal) (ov : Dict OVal) (hs : Holds h s stored)
    (hn : ov.keys.Nodup) :
    ∃ d', parseOverrides s ov h =
        ((ov.foldlM (pStep stored.has) ([], none)).map fun st => ⟨h.length, st.1, st.2⟩,
          h ++ [d']) ∧
      ∀ st', ov.foldlM (pStep stored.has) ([], none) = .ok st' →
        ∀ k, d'.find? k = (stored.find? k).map fun x => overridden (.num x) (ov.find? k) := by
  unfold parseOverrides
  rw [HM.bind_ok (HM.load_run s h)]
  have hg : h.getD s [] = lift stored := by
    simp [List.getD_eq_getElem?_getD, show h[s]? = _ from hs]
  rw [hg, HM.bind_ok (HM.alloc_run _ _)]
  have hr : (h ++ [lift stored])[h.length]? = some (lift stored) := by simp
  obtain ⟨d', e, _, hf⟩ := loop_run h.length ov ([], none) (h ++ [lift stored]) _ hr hn
  have hk : (lift stored).has = stored.has := funext (has_lift stored)
  rw [hk] at e hf
  have hset : (h ++ [lift stored]).set h.length d' = h ++ [d'] := by
    rw [List.set_append_right _ _ (le_refl _)]; simp
  rw [hset] at e
  refine ⟨d', ?_, fun st' hst k => ?_⟩
  · cases hres : ov.foldlM (pStep stored.has) ([], none) with
    | error x => rw [hres] at e; rw [HM.bind_error e]; rfl
    | ok st => rw [hres] at e; rw [HM.bind_ok e]; rfl
  · rw [hf st' hst k, find?_lift]
    cases stored.find? k <;> rfl

/-! ## The canonical matrices -/

theorem find?_scal_num {d : Dict MVal} {k : String} {x : SVal} (h : d.find? k = some (.num x)) :
    (scal d).find? k = some x.val := by
  induction d with
  | nil => simp at h
  | cons e d ih =>
    obtain ⟨k', v⟩ := e
    rw [Dict.find?_cons] at h
    by_cases hk : k' = k
    · rw [if_pos hk] at h
      simp only [Option.some.injEq] at h
      subst h; subst hk
      simp [scal, Dict.find?_cons]
    · rw [if_neg hk] at h
      cases v with
      | num y => simp [scal, Dict.find?_cons, hk, ih h]
      | arr ys => simp [scal, ih h]

theorem find?_scal_none {d : Dict MVal} {k : String} (h : d.find? k = none) :
    (scal d).find? k = none := by
  induction d with
  | nil => rfl
  | cons e d ih =>
    obtain ⟨k', v⟩ := e
    rw [Dict.find?_cons] at h
    by_cases hk : k' = k
    · rw [if_pos hk] at h; cases h
    · rw [if_neg hk] at h
      cases v with
      | num y => simp [scal, Dict.find?_cons, hk, ih h]
      | arr ys => simp [scal, ih h]

theorem require_congr {β γ : Type} (a : Dict β) (b : Dict γ) (ks : List String)
    (h : ∀ k ∈ ks, a.has k = b.has k) : a.require ks = b.require ks := by
  induction ks with
  | nil => rfl
  | cons k ks ih =>
    have hk := h k (by simp)
    unfold Dict.has at hk
    simp only [Dict.require]
    cases ha : a.find? k <;> cases hb : b.find? k <;> simp [ha, hb] at hk ⊢
    exact ih fun k' hk' => h k' (by simp [hk'])

/-- Under the keys that are read, the dictionary `d` of the heap holds the numbers of `D`. -/
def Matches (d : Dict MVal) (D : Dict ℝ) : Prop :=
  ∀ k ∈ canonKeys, (d.find? k = none ∧ D.find? k = none) ∨
    ∃ x, d.find? k = some (.num x) ∧ D.find? k = some x.val

theorem Matches.scal {d : Dict MVal} {D : Dict ℝ} (h : Matches d D) :
    ∀ k ∈ canonKeys, (scal d).find? k = D.find? k := by
  intro k hk
  rcases h k hk with ⟨h1, h2⟩ | ⟨x, h1, h2⟩
  · rw [find?_scal_none h1, h2]
  · rw [find?_scal_num h1, h2]

theorem benchmark_run (h : Heap) (r : ℕ) (d : Dict MVal) (hr : h[r]? = some d) (D : Dict ℝ)
    (hm : Matches d D) :
    ∃ d', benchmarkOn r h = ((benchmarkParToCanonical D).2, h.set r d') ∧
      ∀ k, k ≠ "IRzz" → k ≠ "IFzz" → d'.find? k = d.find? k := by
  have hg : h.getD r [] = d := by simp [List.getD_eq_getElem?_getD, hr]
  have hrl : r < h.length := by
    by_contra hc
    rw [List.getElem?_eq_none (by omega)] at hr; cases hr
  have hsame : h.set r d = h := by
    apply List.ext_getElem?
    intro i
    rw [List.getElem?_set]
    by_cases hi : r = i
    · subst hi
      simp [hrl]
      rw [← Option.some_inj, ← List.getElem?_eq_getElem, hr]
    · simp [hi]
  unfold benchmarkOn
  rw [HM.bind_ok (HM.load_run r h), hg]
  set d2 := Dict.set (Dict.set d "IRzz" (.num ⟨.pyFloat, Dict.getD (scal d) "IRxx" 0⟩)) "IFzz"
    (.num ⟨.pyFloat, Dict.getD (scal (Dict.set d "IRzz"
      (.num ⟨.pyFloat, Dict.getD (scal d) "IRxx" 0⟩))) "IFxx" 0⟩) with hd2
  have hf2 : ∀ k, k ≠ "IRzz" → k ≠ "IFzz" → d2.find? k = d.find? k := by
    intro k n1 n2
    rw [hd2, Dict.find?_set_of_ne _ _ (Ne.symm n2), Dict.find?_set_of_ne _ _ (Ne.symm n1)]
  have hne : ∀ k ∈ canonKeys, k ≠ "IRzz" ∧ k ≠ "IFzz" := by decide
  have hs2 : ∀ k ∈ canonKeys, (scal d2).find? k = D.find? k := by
    have hm2 : Matches d2 D := by
      intro k hk
      rw [hf2 k (hne k hk).1 (hne k hk).2]
      exact hm k hk
    exact hm2.scal
  have hreq1 : Dict.require (scal d) canonKeysBefore = Dict.require D canonKeysBefore :=
    require_congr _ _ _ fun k hk => by
      unfold Dict.has; rw [hm.scal k (List.mem_append.2 (Or.inl hk))]
  unfold benchmarkParToCanonical
  rw [hreq1]
  cases hq : Dict.require D canonKeysBefore with
  | error e => exact ⟨d, by rw [hsame]; rfl, fun _ _ _ => rfl⟩
  | ok u =>
    refine ⟨d2, ?_, hf2⟩
    simp only []
    rw [HM.bind_ok (HM.store_run _ _ _)]
    set D2 := Dict.set (Dict.set D "IRzz" (Dict.getD D "IRxx" 0)) "IFzz"
      (Dict.getD (Dict.set D "IRzz" (Dict.getD D "IRxx" 0)) "IFxx" 0) with hD2
    have hfD : ∀ k ∈ canonKeys, (scal d2).find? k = D2.find? k := by
      intro k hk
      rw [hs2 k hk, hD2, Dict.find?_set_of_ne _ _ (Ne.symm (hne k hk).2),
        Dict.find?_set_of_ne _ _ (Ne.symm (hne k hk).1)]
    have hreq2 : Dict.require (scal d2) canonKeysAfter = Dict.require D2 canonKeysAfter :=
      require_congr _ _ _ fun k hk => by
        unfold Dict.has; rw [hfD k (List.mem_append.2 (Or.inr hk))]
    rw [hreq2]
    cases hq2 : Dict.require D2 canonKeysAfter with
    | error e => rfl
    | ok u => simp only []; rw [ofDict_congr _ _ hfD]; rfl

/-! ## Overrides against the specification -/

theorem find?_evaluatedAt (stored : Dict SVal) (ov : Dict OVal) (i : ℕ) (k : String) :
    (evaluatedAt stored ov i).find? k = (stored.find? k).map fun x => chosen i x (ov.find? k) :=
  find?_map_key (fun k x => chosen i x (ov.find? k)) stored k

/-- The names of the swept parameters, in the order of the keyword arguments. -/
def sweptKeys (stored : Dict SVal) (ov : Dict OVal) : List String :=
  (knownArrays stored.has ov).map Prod.fst

theorem mem_sweptKeys {stored : Dict SVal} {ov : Dict OVal} {k : String} :
    k ∈ sweptKeys stored ov ↔ Swept stored ov k := by
  unfold sweptKeys Swept
  rw [List.mem_map]
  constructor
  · rintro ⟨⟨k', xs⟩, hm, rfl⟩
    exact ⟨(mem_knownArrays.1 hm).2, xs, (mem_knownArrays.1 hm).1⟩
  · rintro ⟨hk, ys, hm⟩
    exact ⟨(k, ys), mem_knownArrays.2 ⟨hm, hk⟩, rfl⟩

theorem find?_eq_of_mem_nodup {β : Type} {d : Dict β} {k : String} {v : β} (hn : d.keys.Nodup)
    (hm : (k, v) ∈ d) : d.find? k = some v := by
  induction d with
  | nil => simp at hm
  | cons e d ih =>
    obtain ⟨k', v'⟩ := e
    have hn' : k' ∉ Dict.keys d ∧ (Dict.keys d).Nodup := by
      have : Dict.keys ((k', v') :: d) = k' :: Dict.keys d := rfl
      rw [this] at hn; exact List.nodup_cons.1 hn
    rw [Dict.find?_cons]
    rcases List.mem_cons.1 hm with he | hm
    · cases he; simp
    · have : k' ≠ k := by
        rintro rfl
        exact hn'.1 (List.mem_map.2 ⟨(k', v), hm, rfl⟩)
      rw [if_neg this]; exact ih hn'.2 hm

theorem mem_of_find? {β : Type} {d : Dict β} {k : String} {v : β} (h : d.find? k = some v) :
    (k, v) ∈ d := by
  induction d with
  | nil => simp at h
  | cons e d ih =>
    obtain ⟨k', v'⟩ := e
    rw [Dict.find?_cons] at h
    by_cases hk : k' = k
    · rw [if_pos hk] at h; cases h; subst hk; simp
    · rw [if_neg hk] at h; exact List.mem_cons_of_mem _ (ih h)

/-- The result of `_parse_parameter_overrides` when the arguments are compatible. -/
theorem parse_good (h : Heap) (s : ℕ) (stored : Dict SVal) (ov : Dict OVal) (n : ℕ)
    (hs : Holds h s stored) (hn : ov.keys.Nodup) (hc : Compatible stored ov n) :
    ∃ d', parseOverrides s ov h = (.ok ⟨h.length, sweptKeys stored ov,
        if sweptKeys stored ov = [] then none else some n⟩, h ++ [d']) ∧
      ∀ k, d'.find? k = (stored.find? k).map fun x => overridden (.num x) (ov.find? k) := by
  obtain ⟨d', e, hf⟩ := parse_run h s stored ov hs hn
  have hfold := fold_ok stored.has ov n ([], none) (Or.inl rfl) hc.1
    (fun a ha => hc.2 a.1 a.2 (mem_knownArrays.1 ha).2 (mem_knownArrays.1 ha).1)
  refine ⟨d', ?_, hf _ hfold⟩
  rw [e, hfold]
  have : (sweptKeys stored ov = []) ↔ (knownArrays stored.has ov = []) := by
    unfold sweptKeys; exact List.map_eq_nil_iff
  simp only [Except.map, this]
  rfl

/-- The dictionary made by `_parse_parameter_overrides` holds arrays under the swept keys and
numbers elsewhere. -/
theorem parsed_entry {stored : Dict SVal} {ov : Dict OVal} {n : ℕ} {d : Dict MVal}
    (hn : ov.keys.Nodup) (hc : Compatible stored ov n)
    (hf : ∀ k, d.find? k = (stored.find? k).map fun x => overridden (.num x) (ov.find? k))
    (k : String) :
    (k ∈ sweptKeys stored ov → ∃ ys, d.find? k = some (.arr ys) ∧ ys.length = n ∧
      ∀ i, ∀ hi : i < ys.length, (evaluatedAt stored ov i).find? k = some ys[i]) ∧
    (k ∉ sweptKeys stored ov → (d.find? k = none ∧ ∀ i, (evaluatedAt stored ov i).find? k = none) ∨
      ∃ x, d.find? k = some (.num x) ∧ ∀ i, (evaluatedAt stored ov i).find? k = some x) := by
  constructor
  · intro hk
    obtain ⟨hs, ys, hm⟩ := mem_sweptKeys.1 hk
    obtain ⟨x, hx⟩ := (Dict.has_iff_exists _ _).1 hs
    have hfo := find?_eq_of_mem_nodup hn hm
    refine ⟨ys, ?_, hc.2 k ys hs hm, fun i hi => ?_⟩
    · rw [hf, hx, hfo]; rfl
    · rw [find?_evaluatedAt, hx, hfo]
      simp [chosen, List.getElem?_eq_getElem hi]
  · intro hk
    cases hx : stored.find? k with
    | none =>
      refine Or.inl ⟨by rw [hf, hx]; rfl, fun i => by rw [find?_evaluatedAt, hx]; rfl⟩
    | some x =>
      right
      have hs : stored.has k = true := (Dict.has_iff_exists _ _).2 ⟨x, hx⟩
      cases ho : ov.find? k with
      | none =>
        exact ⟨x, by rw [hf, hx, ho]; rfl, fun i => by rw [find?_evaluatedAt, hx, ho]; rfl⟩
      | some o =>
        cases o with
        | num y =>
          exact ⟨_, by rw [hf, hx, ho]; rfl, fun i => by rw [find?_evaluatedAt, hx, ho]; rfl⟩
        | unsized => exact absurd (mem_of_find? ho) (hc.1 k hs)
        | arr ys => exact absurd (mem_sweptKeys.2 ⟨hs, ys, mem_of_find? ho⟩) hk

/-- The inner loop writes the `i`-th values into `mutable_par`. -/
theorem setSlice_run (h0 : Heap) (par : ℕ) (dpar : Dict MVal) (i : ℕ) (keys : List String)
    (hp : h0[par]? = some dpar) (it : String → SVal)
    (hk : ∀ k ∈ keys, itemOf dpar k i = .ok (it k)) (dm : Dict MVal) :
    ∃ dm', HM.loop (setSlice par h0.length i) () keys (h0 ++ [dm]) = (.ok (), h0 ++ [dm']) ∧
      ∀ k, dm'.find? k = if k ∈ keys then some (.num (it k)) else dm.find? k := by
  induction keys generalizing dm with
  | nil => exact ⟨dm, rfl, fun k => by simp⟩
  | cons key keys ih =>
    have hpl : par < h0.length := by
      by_contra hc
      rw [List.getElem?_eq_none (by omega)] at hp; cases hp
    have e1 : setSlice par h0.length i () key (h0 ++ [dm]) =
        (.ok (), h0 ++ [dm.set key (.num (it key))]) := by
      unfold setSlice
      rw [HM.bind_ok (HM.load_run _ _)]
      have hg : (h0 ++ [dm]).getD par [] = dpar := by
        rw [List.getD_eq_getElem?_getD, List.getElem?_append_left hpl, hp]; rfl
      rw [hg, HM.bind_ok (h' := h0 ++ [dm]) (a := it key)
        (by rw [HM.ofExcept_run, hk key (by simp)]), HM.bind_ok (HM.load_run _ _)]
      have hg2 : (h0 ++ [dm]).getD h0.length [] = dm := by
        simp [List.getD_eq_getElem?_getD]
      rw [hg2, HM.store_run, List.set_append_right _ _ (le_refl _)]
      simp
    obtain ⟨dm', e2, hf⟩ := ih (fun k hk' => hk k (by simp [hk'])) (dm.set key (.num (it key)))
    refine ⟨dm', ?_, fun k => ?_⟩
    · simp only [HM.loop, HM.bind, e1]; exact e2
    · rw [hf k]
      by_cases h1 : k ∈ keys
      · simp [h1]
      · by_cases h2 : k = key
        · subst h2; simp
        · simp [h1, h2, Dict.find?_set_of_ne _ _ (Ne.symm h2)]

/-- What `form_reduced_canonical_matrices` returns, as a function of the parameters. -/
noncomputable def reducedResult (stored : Dict SVal) (ov : Dict OVal) (n : ℕ) :
    Except PyErr (Stack Canon) :=
  if (sweptKeys stored ov).any (· ∈ canonDeps) then
    ((List.range n).mapM fun i =>
      (benchmarkParToCanonical (nums (evaluatedAt stored ov i))).2).map .many
  else ((benchmarkParToCanonical (nums (evaluatedAt stored ov 0))).2).map .one

theorem canonKeys_canonDeps : ∀ k ∈ canonKeys, k ∈ canonDeps := by decide

theorem reduced_run (h : Heap) (s : ℕ) (stored : Dict SVal) (ov : Dict OVal) (n : ℕ)
    (hs : Holds h s stored) (hn : ov.keys.Nodup) (hc : Compatible stored ov n) :
    ∃ ext, formReducedCanonicalMatrices s ov h = (reducedResult stored ov n, h ++ ext) := by
  obtain ⟨d, e, hf⟩ := parse_good h s stored ov n hs hn hc
  unfold formReducedCanonicalMatrices
  rw [HM.bind_ok e, HM.bind_ok (HM.load_run _ _)]
  simp only []
  have hg : (h ++ [d]).getD h.length [] = d := by simp [List.getD_eq_getElem?_getD]
  rw [hg, HM.bind_ok (HM.alloc_run _ _)]
  unfold reducedResult
  have hent := fun k => parsed_entry hn hc hf k
  by_cases hany : (sweptKeys stored ov).any (· ∈ canonDeps) = true
  · rw [if_pos hany, if_pos hany]
    have hne : sweptKeys stored ov ≠ [] := by
      intro h0; rw [h0] at hany; simp at hany
    rw [if_neg hne]
    simp only [Option.getD_some]
    set h0 := h ++ [d] with hh0
    set keys := sweptKeys stored ov with hkeys
    have hp : h0[h.length]? = some d := by simp [hh0]
    let P : Heap → Prop := fun h' => ∃ dm, h' = h0 ++ [dm] ∧
      ∀ k, k ∉ keys → k ≠ "IRzz" → k ≠ "IFzz" → dm.find? k = d.find? k
    obtain ⟨h', e1, dm, rfl, _⟩ := HM.collect_run (canonSlice h.length h0.length keys)
      (fun i => (benchmarkParToCanonical (nums (evaluatedAt stored ov i))).2) P (List.range n)
      (by
        rintro i hi h1 ⟨dm, rfl, hdm⟩
        have hi' : i < n := List.mem_range.1 hi
        have hit : ∀ k ∈ keys, itemOf d k i =
            .ok (((evaluatedAt stored ov i).find? k).getD ⟨.other, 0⟩) := by
          intro k hk
          obtain ⟨ys, h1, h2, h3⟩ := (hent k).1 hk
          have hi2 : i < ys.length := by omega
          rw [h3 i hi2]
          simp [itemOf, Dict.get, h1, Except.bind, MVal.item, List.getElem?_eq_getElem hi2]
        obtain ⟨dm1, e1, hf1⟩ := setSlice_run h0 h.length d i keys hp _ hit dm
        have hm : Matches dm1 (nums (evaluatedAt stored ov i)) := by
          intro k hk
          rw [hf1 k, find?_nums]
          have hz : k ≠ "IRzz" ∧ k ≠ "IFzz" := (by decide : ∀ k ∈ canonKeys, k ≠ "IRzz" ∧ k ≠ "IFzz") k hk
          by_cases hk' : k ∈ keys
          · obtain ⟨ys, h1, h2, h3⟩ := (hent k).1 hk'
            right
            have hi2 : i < ys.length := by omega
            simp [hk', h3 i hi2]
          · rw [if_neg hk', hdm k hk' hz.1 hz.2]
            rcases (hent k).2 hk' with ⟨h1, h2⟩ | ⟨x, h1, h2⟩
            · left; simp [h1, h2]
            · right; exact ⟨x, h1, by simp [h2]⟩
        obtain ⟨dm2, e2, hf2⟩ := benchmark_run (h0 ++ [dm1]) h0.length dm1 (by simp) _ hm
        refine ⟨h0 ++ [dm2], ?_, dm2, rfl, fun k h1 h2 h3 => ?_⟩
        · unfold canonSlice
          rw [HM.bind_ok e1, e2, List.set_append_right _ _ (le_refl _)]
          simp
        · rw [hf2 k h2 h3, hf1 k, if_neg h1, hdm k h1 h2 h3])
      (h0 ++ [d]) ⟨d, rfl, fun _ _ _ _ => rfl⟩
    refine ⟨[d, dm], ?_⟩
    cases hres : (List.range n).mapM fun i =>
        (benchmarkParToCanonical (nums (evaluatedAt stored ov i))).2 with
    | error x => rw [hres] at e1; rw [HM.bind_error e1]; simp [hh0, Except.map]
    | ok cs => rw [hres] at e1; rw [HM.bind_ok e1]; simp [hh0, Except.map, HM.pure_run]
  · rw [if_neg hany, if_neg hany]
    have hm : Matches d (nums (evaluatedAt stored ov 0)) := by
      intro k hk
      rw [find?_nums]
      have hk' : k ∉ sweptKeys stored ov := by
        intro hc'
        exact hany (List.any_eq_true.2 ⟨k, hc', by simpa using canonKeys_canonDeps k hk⟩)
      rcases (hent k).2 hk' with ⟨h1, h2⟩ | ⟨x, h1, h2⟩
      · left; simp [h1, h2]
      · right; exact ⟨x, h1, by simp [h2]⟩
    obtain ⟨d2, e2, _⟩ := benchmark_run (h ++ [d] ++ [d]) h.length d (by simp) _ hm
    refine ⟨[d2, d], ?_⟩
    have hset : (h ++ [d] ++ [d]).set h.length d2 = h ++ [d2, d] := by
      rw [List.append_assoc, List.set_append_right _ _ (le_refl _)]; simp
    rw [hset] at e2
    cases hres : (benchmarkParToCanonical (nums (evaluatedAt stored ov 0))).2 with
    | error x => rw [hres] at e2; rw [HM.bind_error e2]; rfl
    | ok cs => rw [hres] at e2; rw [HM.bind_ok e2]; rfl

end BP
