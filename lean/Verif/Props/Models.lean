import Verif.Lemmas.Models
import Verif.Props.SetGeometry
import Verif.Props.Tables

/-!
# Properties of models.py: overrides (C65), pointwise evaluation (C66), feedback (C67)

Every theorem runs the code on an arbitrary heap `h` in which object `s` is the stored
parameter set, and says what is returned and that every existing dictionary is unchanged.
-/

set_option linter.unusedSimpArgs false

namespace BP

open Matrix Spec

/-- The keys a Whipple-Carvallo parameter set needs for the matrices. -/
def whippleKeys : List String := canonKeys ++ ["v", "g"]

/-- `A` and `B` for plain numbers: the matrices of bicycle.py at the speed and gravity of the
dictionary. -/
noncomputable def stateSpaceOf (D : Dict SVal) : StateSpace :=
  let c := (Bench.ofDict (nums D)).canon
  (abA c.M c.C1 c.K0 c.K2 (Dict.getD (nums D) "v" 0) (Dict.getD (nums D) "g" 0), abB c.M)

/-! ## C65 -/

theorem evaluatedAt_keys (stored : Dict SVal) (ov : Dict OVal) (i : ℕ) :
    (evaluatedAt stored ov i).keys = stored.keys := by
  unfold evaluatedAt Dict.keys
  rw [List.map_map]; rfl

/-- **C65.** `_parse_parameter_overrides` with usable arguments: a new dictionary is returned
in which every swept parameter holds its array and every other parameter the single number
chosen by the user; the swept parameters are listed; all existing dictionaries, the stored
parameter set among them, are unchanged. -/
theorem C65_overrides (h : Heap) (s : ℕ) (stored : Dict SVal) (ov : Dict OVal) (n : ℕ)
    (hs : h[s]? = some (stored.map fun e => (e.1, .num e.2))) (hn : ov.keys.Nodup)
    (hc : Compatible stored ov n) :
    ∃ (p : Parsed) (d : Dict MVal),
      parseOverrides s ov h = (.ok p, h ++ [d]) ∧ p.par = h.length ∧
      (∀ k, k ∈ p.arrayKeys ↔ Swept stored ov k) ∧
      (p.arrayKeys = [] → p.arrayLen = none) ∧ (p.arrayKeys ≠ [] → p.arrayLen = some n) ∧
      (∀ k, d.has k = stored.has k) ∧
      (∀ k ys, stored.has k = true → (k, .arr ys) ∈ ov → d.find? k = some (.arr ys)) ∧
      (∀ k i, ¬ Swept stored ov k →
        d.find? k = ((evaluatedAt stored ov i).find? k).map .num) := by
  obtain ⟨d, e, hf⟩ := parse_good h s stored ov n hs hn hc
  refine ⟨_, d, e, rfl, fun k => mem_sweptKeys, fun h0 => if_pos h0, fun h0 => if_neg h0, fun k => ?_,
    fun k ys hk hm => ?_, fun k i hk => ?_⟩
  · unfold Dict.has; rw [hf k]; cases stored.find? k <;> rfl
  · obtain ⟨x, hx⟩ := (Dict.has_iff_exists _ _).1 hk
    rw [hf k, hx, find?_eq_of_mem_nodup hn hm]; rfl
  · rcases (parsed_entry hn hc hf k).2 (fun h0 => hk (mem_sweptKeys.1 h0)) with ⟨h1, h2⟩ | ⟨x, h1, h2⟩
    · rw [h1, h2 i]; rfl
    · rw [h1, h2 i]; rfl

/-- **C65.** Arrays of different lengths raise `ValueError`, an argument that is neither a
number nor an array raises `TypeError`, and nothing else raises; existing dictionaries stay as
they were. -/
theorem C65_overrides_raise (h : Heap) (s : ℕ) (stored : Dict SVal) (ov : Dict OVal)
    (hs : h[s]? = some (stored.map fun e => (e.1, .num e.2))) (hn : ov.keys.Nodup) :
    ((∃ p, (parseOverrides s ov h).1 = .ok p) ↔ ∃ n, Compatible stored ov n) ∧
    (∀ e, (parseOverrides s ov h).1 = .error e →
      (e = .typeError ∧ ∃ k, stored.has k = true ∧ (k, OVal.unsized) ∈ ov) ∨
      (e = .valueError ∧ ∃ j k xs ys, stored.has j = true ∧ stored.has k = true ∧
        (j, OVal.arr xs) ∈ ov ∧ (k, OVal.arr ys) ∈ ov ∧ xs.length ≠ ys.length)) ∧
    ∃ d, (parseOverrides s ov h).2 = h ++ [d] := by
  obtain ⟨d, e, _⟩ := parse_run h s stored ov hs hn
  rw [e]
  refine ⟨⟨?_, ?_⟩, ?_, d, rfl⟩
  · rintro ⟨p, hp⟩
    cases hfold : ov.foldlM (pStep stored.has) ([], none) with
    | error x => rw [hfold] at hp; cases hp
    | ok st =>
      obtain ⟨a, _, c⟩ := fold_inv _ _ _ _ hfold
      refine ⟨st.2.getD 0, a, fun k ys hk hm => ?_⟩
      have := c (k, ys) (mem_knownArrays.2 ⟨hm, hk⟩)
      rw [this]; rfl
  · rintro ⟨n, hc⟩
    obtain ⟨d', e', _⟩ := parse_good h s stored ov n hs hn hc
    rw [e] at e'
    exact ⟨_, congrArg Prod.fst e'⟩
  · intro er her
    cases hfold : ov.foldlM (pStep stored.has) ([], none) with
    | ok st => rw [hfold] at her; cases her
    | error x =>
      rw [hfold] at her
      have hx : x = er := by simpa [Except.map] using her
      subst hx
      rcases fold_error _ _ _ _ hfold with h1 | ⟨h1, a, ha, h2⟩
      · exact Or.inl h1
      · right
        refine ⟨h1, ?_⟩
        rcases h2 with ⟨n, h3, _⟩ | ⟨b, hb, hne⟩
        · cases h3
        · exact ⟨a.1, b.1, a.2, b.2, (mem_knownArrays.1 ha).2, (mem_knownArrays.1 hb).2,
            (mem_knownArrays.1 ha).1, (mem_knownArrays.1 hb).1, hne⟩

/-! ## C66 -/

theorem canonical_of_stored (D : Dict SVal) (hD : ∀ k ∈ whippleKeys, D.has k = true) :
    (benchmarkParToCanonical (nums D)).2 = .ok (Bench.ofDict (nums D)).canon := by
  rw [canonical_of_keys (nums D) fun k hk => by rw [has_nums]; exact hD k (List.mem_append.2 (Or.inl hk))]

theorem has_evaluatedAt (stored : Dict SVal) (ov : Dict OVal) (i : ℕ) (k : String) :
    (evaluatedAt stored ov i).has k = stored.has k := by
  unfold Dict.has; rw [find?_evaluatedAt]; cases stored.find? k <;> rfl

theorem getD_nums_of_find? {D : Dict SVal} {k : String} {x : SVal} (h : D.find? k = some x) :
    Dict.getD (nums D) k 0 = x.val := by
  unfold Dict.getD; rw [find?_nums, h]; rfl

/-- What is picked for `v` or `g` is the value the specification gives. -/
theorem pick_value {stored : Dict SVal} {ov : Dict OVal} {n : ℕ} {d : Dict MVal}
    (hn : ov.keys.Nodup) (hc : Compatible stored ov n)
    (hf : ∀ k, d.find? k = (stored.find? k).map fun x => overridden (.num x) (ov.find? k))
    (k : String) (hk : stored.has k = true) (i : ℕ) (hi : k ∈ sweptKeys stored ov → i < n) :
    ∃ x, pick d (sweptKeys stored ov) k i = .ok x ∧ (evaluatedAt stored ov i).find? k = some x := by
  unfold pick
  by_cases hs : k ∈ sweptKeys stored ov
  · obtain ⟨ys, h1, h2, h3⟩ := (parsed_entry hn hc hf k).1 hs
    have hl : i < ys.length := by have := hi hs; omega
    refine ⟨ys[i], ?_, h3 i hl⟩
    simp [hs, itemOf, Dict.get, h1, Except.bind, MVal.item, List.getElem?_eq_getElem hl]
  · rcases (parsed_entry hn hc hf k).2 hs with ⟨h1, h2⟩ | ⟨x, h1, h2⟩
    · have := has_evaluatedAt stored ov i k
      rw [hk] at this
      unfold Dict.has at this; rw [h2 i] at this; cases this
    · exact ⟨x, by simp [hs, numOf, Dict.get, h1, Except.bind, MVal.asNum], h2 i⟩

/-- The parameters of the Whipple-Carvallo matrices, `v` and `g`, that the code treats as
changing the matrices. -/
def relevantKeys : List String := canonDeps ++ ["v", "g"]

open Classical in
/-- What `form_state_space_matrices` returns. -/
noncomputable def stateSpaceResult (stored : Dict SVal) (ov : Dict OVal) (n : ℕ) : Stack StateSpace :=
  if ∃ k ∈ relevantKeys, Swept stored ov k then
    .many ((List.range n).map fun i => stateSpaceOf (evaluatedAt stored ov i))
  else .one (stateSpaceOf (evaluatedAt stored ov 0))

theorem ofDict_evaluatedAt (stored : Dict SVal) (ov : Dict OVal) (i j : ℕ)
    (h : ∀ k ∈ canonKeys, ¬ Swept stored ov k) :
    Bench.ofDict (nums (evaluatedAt stored ov i)) = Bench.ofDict (nums (evaluatedAt stored ov j)) := by
  refine ofDict_congr _ _ fun k hk => ?_
  rw [find?_nums, find?_nums, find?_evaluatedAt, find?_evaluatedAt]
  cases hx : stored.find? k with
  | none => rfl
  | some x =>
    cases ho : ov.find? k with
    | none => rfl
    | some o =>
      cases o with
      | num y => rfl
      | unsized => rfl
      | arr ys =>
        exact absurd ⟨(Dict.has_iff_exists _ _).2 ⟨x, hx⟩, ys, mem_of_find? ho⟩ (h k hk)

theorem stateSpace_run (h : Heap) (s : ℕ) (stored : Dict SVal) (ov : Dict OVal) (n : ℕ)
    (hs : Holds h s stored) (hn : ov.keys.Nodup) (hc : Compatible stored ov n)
    (hD : ∀ k ∈ whippleKeys, stored.has k = true) :
    ∃ ext, formStateSpaceMatrices s ov h = (.ok (stateSpaceResult stored ov n), h ++ ext) := by
  obtain ⟨d, e, hf⟩ := parse_good h s stored ov n hs hn hc
  obtain ⟨ext, e2⟩ := reduced_run (h ++ [d]) s stored ov n (hs.append _) hn hc
  refine ⟨[d] ++ ext, ?_⟩
  have hDi : ∀ i, ∀ k ∈ whippleKeys, (evaluatedAt stored ov i).has k = true := by
    intro i k hk; rw [has_evaluatedAt]; exact hD k hk
  have hcan : ∀ i, (benchmarkParToCanonical (nums (evaluatedAt stored ov i))).2 =
      .ok (Bench.ofDict (nums (evaluatedAt stored ov i))).canon := fun i => canonical_of_stored _ (hDi i)
  have hslice : ∀ i, i < n → ∀ c : Canon, abSlice d (sweptKeys stored ov) (c, i) =
      .ok (abOf c (Dict.getD (nums (evaluatedAt stored ov i)) "v" 0)
        (Dict.getD (nums (evaluatedAt stored ov i)) "g" 0)) := by
    intro i hi c
    obtain ⟨g, h1, h2⟩ := pick_value hn hc hf "g" (hD "g" (by decide)) i fun _ => hi
    obtain ⟨v, h3, h4⟩ := pick_value hn hc hf "v" (hD "v" (by decide)) i fun _ => hi
    simp only [abSlice, h1, h3, Except.bind, Except.map]
    rw [getD_nums_of_find? h2, getD_nums_of_find? h4]
  unfold formStateSpaceMatrices
  rw [HM.bind_ok e]
  by_cases hany : (sweptKeys stored ov).any (· ∈ canonDeps) = true
  · have hres : reducedResult stored ov n = .ok (.many ((List.range n).map fun i =>
        (Bench.ofDict (nums (evaluatedAt stored ov i))).canon)) := by
      unfold reducedResult
      rw [if_pos hany, mapM_eq_map (g := fun i => (Bench.ofDict (nums (evaluatedAt stored ov i))).canon)
        (fun i _ => hcan i)]
      rfl
    rw [hres] at e2
    rw [HM.bind_ok e2, HM.bind_ok (HM.load_run _ _)]
    have hg : (h ++ [d] ++ ext).getD h.length [] = d := by
      simp [List.getD_eq_getElem?_getD]
    simp only [hg]
    have hz : ((List.range n).map fun i => (Bench.ofDict (nums (evaluatedAt stored ov i))).canon).zipIdx =
        (List.range n).map fun i => ((Bench.ofDict (nums (evaluatedAt stored ov i))).canon, i) := by
      apply List.ext_getElem
      · simp
      · intro i h1 h2; simp
    have hm : (((List.range n).map fun i =>
        (Bench.ofDict (nums (evaluatedAt stored ov i))).canon).zipIdx).mapM
          (abSlice d (sweptKeys stored ov)) =
        .ok ((List.range n).map fun i => stateSpaceOf (evaluatedAt stored ov i)) := by
      rw [hz, List.mapM_map]
      exact mapM_eq_map fun i hi => hslice i (List.mem_range.1 hi) _
    rw [HM.bind_ok (a := (List.range n).map fun i => stateSpaceOf (evaluatedAt stored ov i))
      (h' := h ++ [d] ++ ext) (by rw [HM.ofExcept_run, hm])]
    have hrel : ∃ k ∈ relevantKeys, Swept stored ov k := by
      obtain ⟨k, h1, h2⟩ := List.any_eq_true.1 hany
      exact ⟨k, List.mem_append.2 (Or.inl (by simpa using h2)), mem_sweptKeys.1 h1⟩
    unfold stateSpaceResult
    rw [if_pos hrel, HM.pure_run, List.append_assoc]
  · have hres : reducedResult stored ov n =
        .ok (.one (Bench.ofDict (nums (evaluatedAt stored ov 0))).canon) := by
      unfold reducedResult
      rw [if_neg hany, hcan]; rfl
    have hno : ∀ k ∈ canonDeps, ¬ Swept stored ov k := fun k hk hsw =>
      hany (List.any_eq_true.2 ⟨k, mem_sweptKeys.2 hsw, by simpa using hk⟩)
    rw [hres] at e2
    rw [HM.bind_ok e2, HM.bind_ok (HM.load_run _ _)]
    have hg : (h ++ [d] ++ ext).getD h.length [] = d := by
      simp [List.getD_eq_getElem?_getD]
    simp only [hg]
    by_cases hvg : "v" ∈ sweptKeys stored ov ∨ "g" ∈ sweptKeys stored ov
    · rw [if_pos hvg]
      have hne : sweptKeys stored ov ≠ [] := by
        intro h0; rw [h0] at hvg; simp at hvg
      rw [if_neg hne]
      simp only [Option.getD_some]
      have hm : ((List.range n).map fun i =>
          ((Bench.ofDict (nums (evaluatedAt stored ov 0))).canon, i)).mapM
            (abSlice d (sweptKeys stored ov)) =
          .ok ((List.range n).map fun i => stateSpaceOf (evaluatedAt stored ov i)) := by
        rw [List.mapM_map]
        refine mapM_eq_map fun i hi => ?_
        simp only [Function.comp_apply]
        rw [hslice i (List.mem_range.1 hi), stateSpaceOf,
          ofDict_evaluatedAt stored ov i 0 fun k hk => hno k (canonKeys_canonDeps k hk)]
        rfl
      rw [HM.bind_ok (a := (List.range n).map fun i => stateSpaceOf (evaluatedAt stored ov i))
        (h' := h ++ [d] ++ ext) (by rw [HM.ofExcept_run, hm])]
      have hrel : ∃ k ∈ relevantKeys, Swept stored ov k := by
        rcases hvg with h1 | h1
        · exact ⟨"v", by decide, mem_sweptKeys.1 h1⟩
        · exact ⟨"g", by decide, mem_sweptKeys.1 h1⟩
      unfold stateSpaceResult
      rw [if_pos hrel, HM.pure_run, List.append_assoc]
    · rw [if_neg hvg]
      have hvg' : "v" ∉ sweptKeys stored ov ∧ "g" ∉ sweptKeys stored ov := not_or.1 hvg
      obtain ⟨v, h1, h2⟩ := pick_value hn hc hf "v" (hD "v" (by decide)) 0 fun h0 => absurd h0 hvg'.1
      obtain ⟨g, h3, h4⟩ := pick_value hn hc hf "g" (hD "g" (by decide)) 0 fun h0 => absurd h0 hvg'.2
      simp only [pick, if_neg hvg'.1, if_neg hvg'.2] at h1 h3
      rw [HM.bind_ok (a := v) (h' := h ++ [d] ++ ext) (by rw [HM.ofExcept_run, h1]),
        HM.bind_ok (a := g) (h' := h ++ [d] ++ ext) (by rw [HM.ofExcept_run, h3])]
      have hrel : ¬ ∃ k ∈ relevantKeys, Swept stored ov k := by
        rintro ⟨k, hk, hsw⟩
        rcases List.mem_append.1 hk with hk | hk
        · exact hno k hk hsw
        · simp only [List.mem_cons, List.not_mem_nil, or_false] at hk
          rcases hk with rfl | rfl
          · exact hvg'.1 (mem_sweptKeys.2 hsw)
          · exact hvg'.2 (mem_sweptKeys.2 hsw)
      unfold stateSpaceResult
      rw [if_neg hrel, HM.pure_run, List.append_assoc, stateSpaceOf, getD_nums_of_find? h2,
        getD_nums_of_find? h4]
      rfl

/-! ### Scalar evaluation of one position -/

theorem find?_scalarsAt (ov : Dict OVal) (i : ℕ) (k : String) :
    (scalarsAt ov i).find? k = (ov.find? k).map (itemAt i) := find?_map_key (fun _ => itemAt i) ov k

theorem keys_scalarsAt (ov : Dict OVal) (i : ℕ) : (scalarsAt ov i).keys = ov.keys := by
  unfold scalarsAt Dict.keys
  rw [List.map_map]; rfl

theorem scalarsAt_not_swept {stored : Dict SVal} {ov : Dict OVal} {n i : ℕ}
    (hc : Compatible stored ov n) (hi : i < n) (k : String) : ¬ Swept stored (scalarsAt ov i) k := by
  rintro ⟨hk, ys, hm⟩
  unfold scalarsAt at hm
  obtain ⟨⟨k', o⟩, hm, he⟩ := List.mem_map.1 hm
  simp only [Prod.mk.injEq] at he
  obtain ⟨rfl, he⟩ := he
  cases o with
  | num x => simp [itemAt] at he
  | unsized => simp [itemAt] at he
  | arr xs =>
    have hl := hc.2 k' xs hk hm
    simp [itemAt, List.getElem?_eq_getElem (show i < xs.length by omega)] at he

theorem scalarsAt_compatible {stored : Dict SVal} {ov : Dict OVal} {n i : ℕ}
    (hc : Compatible stored ov n) (hi : i < n) (m : ℕ) : Compatible stored (scalarsAt ov i) m := by
  refine ⟨fun k hk hm => ?_, fun k ys hk hm => absurd ⟨hk, ys, hm⟩ (scalarsAt_not_swept hc hi k)⟩
  unfold scalarsAt at hm
  obtain ⟨⟨k', o⟩, hm, he⟩ := List.mem_map.1 hm
  simp only [Prod.mk.injEq] at he
  obtain ⟨rfl, he⟩ := he
  cases o with
  | num x => simp [itemAt] at he
  | unsized => exact hc.1 k' hk hm
  | arr xs => cases hx : xs[i]? <;> simp [itemAt, hx] at he

theorem nums_evaluatedAt_scalarsAt {stored : Dict SVal} {ov : Dict OVal} {n i : ℕ} (j : ℕ)
    (hc : Compatible stored ov n) (hi : i < n) (k : String) :
    (nums (evaluatedAt stored (scalarsAt ov i) j)).find? k = (nums (evaluatedAt stored ov i)).find? k := by
  rw [find?_nums, find?_nums, find?_evaluatedAt, find?_evaluatedAt, find?_scalarsAt]
  cases hx : stored.find? k with
  | none => rfl
  | some x =>
    cases ho : ov.find? k with
    | none => rfl
    | some o =>
      cases o with
      | num y => rfl
      | unsized => rfl
      | arr ys =>
        have hl := hc.2 k ys ((Dict.has_iff_exists _ _).2 ⟨x, hx⟩) (mem_of_find? ho)
        have hi' : i < ys.length := by omega
        simp [itemAt, chosen, List.getElem?_eq_getElem hi']

theorem stateSpaceOf_congr {D E : Dict SVal} (h : ∀ k, (nums D).find? k = (nums E).find? k) :
    stateSpaceOf D = stateSpaceOf E := by
  unfold stateSpaceOf
  rw [ofDict_congr _ _ fun k _ => h k]
  unfold Dict.getD
  rw [h "v", h "g"]

/-- **C66.** Evaluating the model with arrays of length `n` never raises for a complete
parameter set and leaves every existing dictionary alone; position `i` of the result is what
the same call with the `i`-th numbers returns, which is the matrix pair of bicycle.py for the
parameters the user chose.  The result has one slice for each position when a parameter that
the matrices depend on is swept. -/
theorem C66_state_space_pointwise (h : Heap) (s : ℕ) (stored : Dict SVal) (ov : Dict OVal) (n : ℕ)
    (hs : h[s]? = some (stored.map fun e => (e.1, .num e.2))) (hn : ov.keys.Nodup)
    (hc : Compatible stored ov n) (hD : ∀ k ∈ whippleKeys, stored.has k = true) :
    ∃ r ext, formStateSpaceMatrices s ov h = (.ok r, h ++ ext) ∧
      (∀ i, i < n → ∃ ext', formStateSpaceMatrices s (scalarsAt ov i) h =
        (.ok (.one (stateSpaceOf (evaluatedAt stored ov i))), h ++ ext') ∧
        r.slice i = .ok (stateSpaceOf (evaluatedAt stored ov i))) ∧
      ((∃ k ∈ relevantKeys, Swept stored ov k) → ∃ as, r = .many as ∧ as.length = n) ∧
      ((∀ k, ¬ Swept stored ov k) → r = .one (stateSpaceOf (evaluatedAt stored ov 0))) := by
  obtain ⟨ext, e⟩ := stateSpace_run h s stored ov n hs hn hc hD
  refine ⟨_, ext, e, fun i hi => ?_, fun hrel => ?_, fun hno => ?_⟩
  · obtain ⟨ext', e'⟩ := stateSpace_run h s stored (scalarsAt ov i) 0 hs (by rw [keys_scalarsAt]; exact hn)
      (scalarsAt_compatible hc hi 0) hD
    have hnone : ¬ ∃ k ∈ relevantKeys, Swept stored (scalarsAt ov i) k := by
      rintro ⟨k, _, hk⟩; exact scalarsAt_not_swept hc hi k hk
    have hr : stateSpaceResult stored (scalarsAt ov i) 0 =
        .one (stateSpaceOf (evaluatedAt stored ov i)) := by
      unfold stateSpaceResult
      rw [if_neg hnone, stateSpaceOf_congr fun k => nums_evaluatedAt_scalarsAt 0 hc hi k]
    rw [hr] at e'
    refine ⟨ext', e', ?_⟩
    unfold stateSpaceResult
    split
    · simp [Stack.slice, List.getElem?_range hi]
    · rename_i hrel
      simp only [Stack.slice, Except.ok.injEq]
      have hno : ∀ k ∈ relevantKeys, ¬ Swept stored ov k := fun k hk hsw => hrel ⟨k, hk, hsw⟩
      have hval : ∀ k ∈ relevantKeys, (nums (evaluatedAt stored ov 0)).find? k =
          (nums (evaluatedAt stored ov i)).find? k := by
        intro k hk
        rw [find?_nums, find?_nums, find?_evaluatedAt, find?_evaluatedAt]
        cases hx : stored.find? k with
        | none => rfl
        | some x =>
          cases ho : ov.find? k with
          | none => rfl
          | some o =>
            cases o with
            | num y => rfl
            | unsized => rfl
            | arr ys =>
              exact absurd ⟨(Dict.has_iff_exists _ _).2 ⟨x, hx⟩, ys, mem_of_find? ho⟩ (hno k hk)
      unfold stateSpaceOf
      rw [ofDict_congr _ _ fun k hk =>
        hval k (List.mem_append.2 (Or.inl (canonKeys_canonDeps k hk)))]
      unfold Dict.getD
      rw [hval "v" (by decide), hval "g" (by decide)]
  · unfold stateSpaceResult
    rw [if_pos hrel]
    exact ⟨_, rfl, by simp⟩
  · unfold stateSpaceResult
    rw [if_neg (by rintro ⟨k, _, hk⟩; exact hno k hk)]

open Classical in
/-- **C66.** `form_reduced_canonical_matrices`: the same, for the parameters the canonical
matrices depend on. -/
theorem C66_canonical_pointwise (h : Heap) (s : ℕ) (stored : Dict SVal) (ov : Dict OVal) (n : ℕ)
    (hs : h[s]? = some (stored.map fun e => (e.1, .num e.2))) (hn : ov.keys.Nodup)
    (hc : Compatible stored ov n) (hD : ∀ k ∈ whippleKeys, stored.has k = true) :
    ∃ r ext, formReducedCanonicalMatrices s ov h = (.ok r, h ++ ext) ∧
      r = (if ∃ k ∈ canonDeps, Swept stored ov k then
        .many ((List.range n).map fun i => (Bench.ofDict (nums (evaluatedAt stored ov i))).canon)
        else .one (Bench.ofDict (nums (evaluatedAt stored ov 0))).canon) ∧
      (∀ i, i < n → ∃ ext', formReducedCanonicalMatrices s (scalarsAt ov i) h =
        (.ok (.one (Bench.ofDict (nums (evaluatedAt stored ov i))).canon), h ++ ext') ∧
        r.slice i = .ok (Bench.ofDict (nums (evaluatedAt stored ov i))).canon) := by
  have hres : ∀ (ov : Dict OVal) (n : ℕ), reducedResult stored ov n = .ok
      (if ∃ k ∈ canonDeps, Swept stored ov k then
        .many ((List.range n).map fun i => (Bench.ofDict (nums (evaluatedAt stored ov i))).canon)
        else .one (Bench.ofDict (nums (evaluatedAt stored ov 0))).canon) := by
    intro ov n
    have hcan : ∀ i, (benchmarkParToCanonical (nums (evaluatedAt stored ov i))).2 =
        .ok (Bench.ofDict (nums (evaluatedAt stored ov i))).canon := fun i =>
      canonical_of_stored _ fun k hk => by rw [has_evaluatedAt]; exact hD k hk
    have hiff : (sweptKeys stored ov).any (· ∈ canonDeps) = true ↔ ∃ k ∈ canonDeps, Swept stored ov k := by
      rw [List.any_eq_true]
      constructor
      · rintro ⟨k, h1, h2⟩; exact ⟨k, by simpa using h2, mem_sweptKeys.1 h1⟩
      · rintro ⟨k, h1, h2⟩; exact ⟨k, mem_sweptKeys.2 h2, by simpa using h1⟩
    unfold reducedResult
    by_cases hany : (sweptKeys stored ov).any (· ∈ canonDeps) = true
    · rw [if_pos hany, if_pos (hiff.1 hany), mapM_eq_map
        (g := fun i => (Bench.ofDict (nums (evaluatedAt stored ov i))).canon) (fun i _ => hcan i)]
      rfl
    · rw [if_neg hany, if_neg (fun h0 => hany (hiff.2 h0)), hcan]; rfl
  obtain ⟨ext, e⟩ := reduced_run h s stored ov n hs hn hc
  rw [hres] at e
  refine ⟨_, ext, e, rfl, fun i hi => ?_⟩
  obtain ⟨ext', e'⟩ := reduced_run h s stored (scalarsAt ov i) 0 hs (by rw [keys_scalarsAt]; exact hn)
    (scalarsAt_compatible hc hi 0)
  have hnone : ¬ ∃ k ∈ canonDeps, Swept stored (scalarsAt ov i) k := by
    rintro ⟨k, _, hk⟩; exact scalarsAt_not_swept hc hi k hk
  rw [hres, if_neg hnone, ofDict_congr _ _ fun k _ => nums_evaluatedAt_scalarsAt 0 hc hi k] at e'
  refine ⟨ext', e', ?_⟩
  split
  · simp [Stack.slice, List.getElem?_range hi]
  · rename_i hrel
    simp only [Stack.slice]
    rw [ofDict_evaluatedAt stored ov 0 i fun k hk hsw => hrel ⟨k, canonKeys_canonDeps k hk, hsw⟩]

/-- A parameter set and keyword arguments meeting the hypotheses: the speed and the mass of
the rear frame vary, the wheelbase is replaced, an unknown name is given. -/
def exampleOverrides : Dict OVal :=
  [("v", .arr [⟨.pyFloat, 1⟩, ⟨.pyFloat, 2⟩, ⟨.other, 3⟩]), ("w", .num ⟨.other, 1⟩),
   ("mB", .arr [⟨.npFloat, 80⟩, ⟨.npFloat, 85⟩, ⟨.npFloat, 90⟩]), ("speed", .unsized)]

theorem example_has (kind : SetKind) (k : String) :
    (exampleSet kind).has k = decide (k ∈ kind.parStrings.keys) := by
  have : (exampleSet kind).keys = kind.parStrings.keys := by
    unfold exampleSet Dict.keys; rw [List.map_map, List.map_map]; rfl
  rw [Bool.eq_iff_iff, Dict.has_iff_mem_keys, this]; simp

theorem example_overrides_usable : Compatible (exampleSet .meijaard) exampleOverrides 3 ∧
    exampleOverrides.keys.Nodup ∧ Swept (exampleSet .meijaard) exampleOverrides "mB" ∧
    ∀ k ∈ whippleKeys, (exampleSet .meijaard).has k = true := by
  refine ⟨⟨fun k hk hm => ?_, fun k ys hk hm => ?_⟩, by decide, ⟨?_, _, by
    unfold exampleOverrides; simp; rfl⟩, fun k hk => ?_⟩
  · simp only [exampleOverrides, List.mem_cons, Prod.mk.injEq, reduceCtorEq, and_false, and_true,
      List.not_mem_nil, or_false, false_or] at hm
    subst hm
    rw [example_has] at hk
    exact absurd hk (by decide)
  · simp only [exampleOverrides, List.mem_cons, Prod.mk.injEq, reduceCtorEq, and_false,
      List.not_mem_nil, or_false, false_or, OVal.arr.injEq] at hm
    rcases hm with ⟨_, rfl⟩ | ⟨_, rfl⟩ <;> rfl
  · rw [example_has]; decide
  · rw [example_has]
    exact (by decide : ∀ k ∈ whippleKeys, decide (k ∈ SetKind.meijaard.parStrings.keys) = true) k hk

/-- **C66.** Sweeping a stored key that the matrices do not depend on (here `IRzz`, which sets
converted from Moore2019 hold) is accepted, has no effect, and gives one matrix pair instead of
one per position: the documented shape `(n,4,4)` is not what is returned. -/
theorem C66_irrelevant_sweep (h : Heap) (s : ℕ) (stored : Dict SVal) (xs : List SVal)
    (hs : h[s]? = some (stored.map fun e => (e.1, .num e.2)))
    (hD : ∀ k ∈ whippleKeys, stored.has k = true) :
    ∃ ext ext', formStateSpaceMatrices s [("IRzz", .arr xs)] h =
        (.ok (.one (stateSpaceOf stored)), h ++ ext) ∧
      formStateSpaceMatrices s [] h = (.ok (.one (stateSpaceOf stored)), h ++ ext') := by
  have hsub : ∀ (ov : Dict OVal), (∀ k, k ≠ "IRzz" → ov.find? k = none) →
      stateSpaceOf (evaluatedAt stored ov 0) = stateSpaceOf stored := by
    intro ov ho
    have hval : ∀ k, k ≠ "IRzz" → (nums (evaluatedAt stored ov 0)).find? k = (nums stored).find? k := by
      intro k hk
      rw [find?_nums, find?_nums, find?_evaluatedAt, ho k hk]
      cases stored.find? k <;> rfl
    unfold stateSpaceOf
    rw [ofDict_congr _ _ fun k hk => hval k
      ((by decide : ∀ k ∈ canonKeys, k ≠ "IRzz") k hk)]
    unfold Dict.getD
    rw [hval "v" (by decide), hval "g" (by decide)]
  obtain ⟨ext, e⟩ := stateSpace_run h s stored [("IRzz", .arr xs)] xs.length hs (by simp [Dict.keys])
    ⟨fun k _ hm => by simp at hm, fun k ys _ hm => by simp at hm; rw [hm.2]⟩ hD
  obtain ⟨ext', e'⟩ := stateSpace_run h s stored [] 0 hs (by simp [Dict.keys])
    ⟨fun k _ hm => by simp at hm, fun k ys _ hm => by simp at hm⟩ hD
  refine ⟨ext, ext', ?_, ?_⟩
  · rw [e]
    unfold stateSpaceResult
    rw [if_neg, hsub _ fun k hk => by simp [Dict.find?_cons, Ne.symm hk]]
    rintro ⟨k, hk, _, ys, hm⟩
    simp at hm
    rw [hm.1] at hk
    exact absurd hk (by decide)
  · rw [e']
    unfold stateSpaceResult
    rw [if_neg, hsub _ fun k hk => rfl]
    rintro ⟨k, hk, _, ys, hm⟩
    simp at hm

end BP
