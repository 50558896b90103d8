import Verif.Props.Models

/-!
# Properties of the feedback model of models.py: C67
-/

set_option linter.unusedSimpArgs false

namespace BP

open Matrix Spec

/-- The gain matrix of a parameter dictionary, as documented at models.py:1058-1063, 1100-1104. -/
noncomputable def Spec.gainsOf (D : Dict SVal) : Matrix (Fin 2) (Fin 4) ℝ :=
  !![Dict.getD (nums D) "kTphi_phi" 0, Dict.getD (nums D) "kTphi_del" 0,
       Dict.getD (nums D) "kTphi_phid" 0, Dict.getD (nums D) "kTphi_deld" 0;
     Dict.getD (nums D) "kTdel_phi" 0, Dict.getD (nums D) "kTdel_del" 0,
       Dict.getD (nums D) "kTdel_phid" 0, Dict.getD (nums D) "kTdel_deld" 0]

/-- The closed loop: `x' = (A - B K) x + B u`. -/
noncomputable def Spec.closedLoopOf (D : Dict SVal) : StateSpace :=
  ((stateSpaceOf D).1 - (stateSpaceOf D).2 * gainsOf D, (stateSpaceOf D).2)

/-- The keys the feedback model needs. -/
def feedbackKeys : List String := whippleKeys ++ gainNames

theorem mapM_gains {f : String → Except PyErr SVal} {D : Dict SVal}
    (h : ∀ k ∈ gainNames, ∃ x, f k = .ok x ∧ D.find? k = some x) :
    ∃ xs, gainNames.mapM f = .ok xs ∧ gainMatrix (xs.map SVal.val) = gainsOf D ∧
      xs = gainNames.map fun k => (D.find? k).getD ⟨.other, 0⟩ := by
  have hm : gainNames.mapM f = .ok (gainNames.map fun k => (D.find? k).getD ⟨.other, 0⟩) := by
    refine mapM_eq_map fun k hk => ?_
    obtain ⟨x, h1, h2⟩ := h k hk
    rw [h1, h2]; rfl
  refine ⟨_, hm, ?_, rfl⟩
  have hg : ∀ k, ((D.find? k).getD ⟨.other, 0⟩).val = Dict.getD (nums D) k 0 := by
    intro k
    unfold Dict.getD; rw [find?_nums]; cases D.find? k <;> rfl
  simp only [gainNames, List.map_cons, List.map_nil, hg]
  rfl

/-- The first values of the gains are not all integers, or all gains are integers: numpy
stores the gains without rounding. -/
def Spec.GainsStoredExactly (stored : Dict SVal) (ov : Dict OVal) (n : ℕ) : Prop :=
  (∃ k ∈ gainNames, ∃ x, (evaluatedAt stored ov 0).find? k = some x ∧ x.ty ≠ .other) ∨
  ∀ k ∈ gainNames, ∀ i < n, ∀ x, (evaluatedAt stored ov i).find? k = some x → ∃ z : ℤ, x.val = z

theorem truncZ_int (z : ℤ) : truncZ z = z := by
  unfold truncZ; simp

/-- The gains of every position. -/
theorem gainStack_run {stored : Dict SVal} {ov : Dict OVal} {n : ℕ} {d : Dict MVal}
    (hn : ov.keys.Nodup) (hc : Compatible stored ov n)
    (hf : ∀ k, d.find? k = (stored.find? k).map fun x => overridden (.num x) (ov.find? k))
    (hD : ∀ k ∈ gainNames, stored.has k = true)
    (hpos : (∃ k ∈ gainNames, Swept stored ov k) → 0 < n)
    (hex : (∃ k ∈ gainNames, Swept stored ov k) → GainsStoredExactly stored ov n) :
    ∃ K, gainStack d (sweptKeys stored ov) n = .ok K ∧
      (∀ i < n, K.slice i = .ok (gainsOf (evaluatedAt stored ov i))) ∧
      ((∀ k ∈ gainNames, ¬ Swept stored ov k) → K = .one (gainsOf (evaluatedAt stored ov 0))) := by
  have hpick := fun k hk i hi => pick_value hn hc hf k (hD k hk) i hi
  unfold gainStack
  by_cases hany : (sweptKeys stored ov).any (· ∈ gainNames) = true
  · have hsw : ∃ k ∈ gainNames, Swept stored ov k := by
      obtain ⟨k, h1, h2⟩ := List.any_eq_true.1 hany
      exact ⟨k, by simpa using h2, mem_sweptKeys.1 h1⟩
    have hn0 := hpos hsw
    rw [if_pos hany]
    obtain ⟨firsts, e1, _, e3⟩ := mapM_gains (f := firstGain d (sweptKeys stored ov))
      (D := evaluatedAt stored ov 0) fun k hk => hpick k hk 0 fun _ => hn0
    simp only [e1, Except.bind]
    have hentry : ∀ i < n, ∀ k ∈ gainNames,
        gainEntry d (sweptKeys stored ov) (firsts.all fun x => decide (x.ty = .other)) i
          (k, ((evaluatedAt stored ov 0).find? k).getD ⟨.other, 0⟩) =
        .ok (((evaluatedAt stored ov i).find? k).getD ⟨.other, 0⟩).val := by
      intro i hi k hk
      obtain ⟨x, h1, h2⟩ := hpick k hk i fun _ => hi
      unfold gainEntry
      by_cases hks : k ∈ sweptKeys stored ov
      · unfold pick at h1
        rw [if_pos hks] at h1
        simp only [hks, if_true, h1, Except.map, h2, Option.getD_some]
        congr 1
        split
        · rename_i hall
          rcases hex hsw with ⟨k', hk', y, hy, hty⟩ | hint
          · exfalso
            rw [List.all_eq_true] at hall
            have := hall y (by
              rw [e3]; exact List.mem_map.2 ⟨k', hk', by rw [hy]; rfl⟩)
            exact hty (by simpa using this)
          · obtain ⟨z, hz⟩ := hint k hk i hi x h2
            rw [hz, truncZ_int]
        · rfl
      · rcases (parsed_entry hn hc hf k).2 hks with ⟨h3, h4⟩ | ⟨y, h3, h4⟩
        · rw [h4 i] at h2; cases h2
        · simp only [hks, if_false, h4 0, h4 i, Option.getD_some]
    have hrow : ∀ i < n, ((gainNames.zip firsts).mapM
        (gainEntry d (sweptKeys stored ov) (firsts.all fun x => decide (x.ty = .other)) i)).map gainMatrix =
        .ok (gainsOf (evaluatedAt stored ov i)) := by
      intro i hi
      have hzip : gainNames.zip firsts =
          gainNames.map fun k => (k, ((evaluatedAt stored ov 0).find? k).getD ⟨.other, 0⟩) := by
        rw [e3]; rfl
      have hm : gainNames.mapM (gainEntry d (sweptKeys stored ov)
          (firsts.all fun x => decide (x.ty = .other)) i ∘ fun k =>
            (k, ((evaluatedAt stored ov 0).find? k).getD ⟨.other, 0⟩)) = .ok (gainNames.map fun k =>
          (((evaluatedAt stored ov i).find? k).getD ⟨.other, 0⟩).val) :=
        mapM_eq_map fun k hk => hentry i hi k hk
      rw [hzip, List.mapM_map, hm]
      simp only [Except.map]
      have hg : ∀ k, (((evaluatedAt stored ov i).find? k).getD ⟨.other, 0⟩).val =
          Dict.getD (nums (evaluatedAt stored ov i)) k 0 := by
        intro k
        unfold Dict.getD; rw [find?_nums]; cases (evaluatedAt stored ov i).find? k <;> rfl
      congr 1
      simp only [gainNames, List.map_cons, List.map_nil, hg]
      rfl
    rw [mapM_eq_map (g := fun i => gainsOf (evaluatedAt stored ov i))
      (fun i hi => hrow i (List.mem_range.1 hi))]
    refine ⟨_, rfl, fun i hi => ?_, fun hno => ?_⟩
    · simp [Stack.slice, List.getElem?_range hi]
    · obtain ⟨k, hk, hk'⟩ := hsw
      exact absurd hk' (hno k hk)
  · rw [if_neg hany]
    have hno : ∀ k ∈ gainNames, k ∉ sweptKeys stored ov := fun k hk h0 =>
      hany (List.any_eq_true.2 ⟨k, h0, by simpa using hk⟩)
    obtain ⟨xs, e1, e2, _⟩ := mapM_gains (f := numOf d)
      (D := evaluatedAt stored ov 0) fun k hk => by
        obtain ⟨x, h1, h2⟩ := hpick k hk 0 fun h0 => absurd h0 (hno k hk)
        unfold pick at h1
        rw [if_neg (hno k hk)] at h1
        exact ⟨x, h1, h2⟩
    rw [e1]
    simp only [Except.map, e2]
    refine ⟨_, rfl, fun i _ => ?_, fun _ => rfl⟩
    simp only [Stack.slice]
    congr 1
    have hv : ∀ k ∈ gainNames, Dict.getD (nums (evaluatedAt stored ov 0)) k 0 =
        Dict.getD (nums (evaluatedAt stored ov i)) k 0 := by
      intro k hk
      unfold Dict.getD
      rw [find?_nums, find?_nums]
      rcases (parsed_entry hn hc hf k).2 (hno k hk) with ⟨_, h2⟩ | ⟨x, _, h2⟩ <;> rw [h2 0, h2 i]
    unfold gainsOf
    rw [hv "kTphi_phi" (by decide), hv "kTphi_del" (by decide), hv "kTphi_phid" (by decide),
      hv "kTphi_deld" (by decide), hv "kTdel_phi" (by decide), hv "kTdel_del" (by decide),
      hv "kTdel_phid" (by decide), hv "kTdel_deld" (by decide)]

theorem numOrItem_value {stored : Dict SVal} {ov : Dict OVal} {n : ℕ} {d : Dict MVal}
    (hn : ov.keys.Nodup) (hc : Compatible stored ov n)
    (hf : ∀ k, d.find? k = (stored.find? k).map fun x => overridden (.num x) (ov.find? k))
    (k : String) (hk : stored.has k = true) (i : ℕ) (hi : i < n) :
    ∃ x, numOrItem d k i = .ok x ∧ (evaluatedAt stored ov i).find? k = some x := by
  by_cases hs : k ∈ sweptKeys stored ov
  · obtain ⟨ys, h1, h2, h3⟩ := (parsed_entry hn hc hf k).1 hs
    have hl : i < ys.length := by omega
    refine ⟨ys[i], ?_, h3 i hl⟩
    simp [numOrItem, Dict.get, h1, Except.bind, MVal.item, List.getElem?_eq_getElem hl]
  · rcases (parsed_entry hn hc hf k).2 hs with ⟨h1, h2⟩ | ⟨x, h1, h2⟩
    · have := has_evaluatedAt stored ov i k
      rw [hk] at this
      unfold Dict.has at this; rw [h2 i] at this; cases this
    · exact ⟨x, by simp [numOrItem, Dict.get, h1, Except.bind], h2 i⟩

open Classical in
/-- **C67.** The feedback model: for every usable combination of single numbers and arrays
of length `n` the call succeeds, no existing dictionary changes, and the matrices are
`(A - B K, B)` for the parameters of every position.  With arrays there is one pair for every
position, whichever parameter is swept.  The two conditions on swept gains exclude empty
arrays and gains that numpy rounds, see the two theorems below. -/
theorem C67_closed_loop (h : Heap) (s : ℕ) (stored : Dict SVal) (ov : Dict OVal) (n : ℕ)
    (hs : h[s]? = some (stored.map fun e => (e.1, .num e.2))) (hn : ov.keys.Nodup)
    (hc : Compatible stored ov n) (hD : ∀ k ∈ feedbackKeys, stored.has k = true)
    (hpos : (∃ k ∈ gainNames, Swept stored ov k) → 0 < n)
    (hex : (∃ k ∈ gainNames, Swept stored ov k) → GainsStoredExactly stored ov n) :
    ∃ ext, formFeedbackMatrices s ov h = (.ok (
      if ∃ k, Swept stored ov k then
        .many ((List.range n).map fun i => closedLoopOf (evaluatedAt stored ov i))
      else .one (closedLoopOf (evaluatedAt stored ov 0))), h ++ ext) := by
  have hW : ∀ k ∈ whippleKeys, stored.has k = true := fun k hk => hD k (List.mem_append.2 (Or.inl hk))
  have hG : ∀ k ∈ gainNames, stored.has k = true := fun k hk => hD k (List.mem_append.2 (Or.inr hk))
  obtain ⟨d, e, hf⟩ := parse_good h s stored ov n hs hn hc
  obtain ⟨c, ext, e2, hceq, hcs⟩ := C66_canonical_pointwise (h ++ [d]) s stored ov n
    (Holds.append (h := h) (s := s) (stored := stored) hs [d]) hn hc hW
  obtain ⟨K, eK, hK, hK1⟩ := gainStack_run hn hc hf hG hpos hex
  refine ⟨[d] ++ ext, ?_⟩
  unfold formFeedbackMatrices
  rw [HM.bind_ok e, HM.bind_ok e2, HM.bind_ok (HM.load_run _ _)]
  have hg : (h ++ [d] ++ ext).getD h.length [] = d := by
    simp [List.getD_eq_getElem?_getD]
  simp only [hg]
  have hiff : (∃ k, Swept stored ov k) ↔ sweptKeys stored ov ≠ [] := by
    constructor
    · rintro ⟨k, hk⟩ h0
      have := mem_sweptKeys.2 hk
      rw [h0] at this; simp at this
    · intro h0
      obtain ⟨k, hk⟩ := List.exists_mem_of_ne_nil _ h0
      exact ⟨k, mem_sweptKeys.1 hk⟩
  by_cases hnil : sweptKeys stored ov = []
  · rw [if_neg (fun h0 => (hiff.1 h0) hnil)]
    have hgs : gainStack d (sweptKeys stored ov)
        ((if sweptKeys stored ov = [] then none else some n : Option ℕ).getD 0) = .ok K := by
      have hno : ¬ (sweptKeys stored ov).any (· ∈ gainNames) = true := by rw [hnil]; simp
      unfold gainStack at eK ⊢
      rw [if_neg hno] at eK ⊢; exact eK
    rw [HM.bind_ok (a := K) (h' := h ++ [d] ++ ext) (by rw [HM.ofExcept_run, hgs]), if_pos hnil]
    have hnosw : ∀ k, ¬ Swept stored ov k := fun k hk => (hiff.1 ⟨k, hk⟩) hnil
    have hK0 := hK1 fun k _ => hnosw k
    have hc0 : c = .one (Bench.ofDict (nums (evaluatedAt stored ov 0))).canon := by
      rw [hceq, if_neg (by rintro ⟨k, _, hk⟩; exact hnosw k hk)]
    subst hc0; subst hK0
    obtain ⟨v, h1, h2⟩ := pick_value hn hc hf "v" (hW "v" (by decide)) 0
      fun h0 => absurd (mem_sweptKeys.1 h0) (hnosw _)
    obtain ⟨g, h3, h4⟩ := pick_value hn hc hf "g" (hW "g" (by decide)) 0
      fun h0 => absurd (mem_sweptKeys.1 h0) (hnosw _)
    unfold pick at h1 h3
    rw [if_neg fun h0 => hnosw _ (mem_sweptKeys.1 h0)] at h1 h3
    rw [HM.bind_ok (a := (Bench.ofDict (nums (evaluatedAt stored ov 0))).canon) (h' := h ++ [d] ++ ext)
        (by rw [HM.ofExcept_run]; rfl),
      HM.bind_ok (a := v) (h' := h ++ [d] ++ ext) (by rw [HM.ofExcept_run, h1]),
      HM.bind_ok (a := g) (h' := h ++ [d] ++ ext) (by rw [HM.ofExcept_run, h3]),
      HM.bind_ok (a := gainsOf (evaluatedAt stored ov 0)) (h' := h ++ [d] ++ ext)
        (by rw [HM.ofExcept_run]; rfl), HM.pure_run, List.append_assoc]
    unfold closedLoopOf stateSpaceOf
    rw [getD_nums_of_find? h2, getD_nums_of_find? h4]
    rfl
  · rw [if_pos (hiff.2 hnil)]
    simp only [if_neg hnil, Option.getD_some]
    rw [HM.bind_ok (a := K) (h' := h ++ [d] ++ ext) (by rw [HM.ofExcept_run, eK])]
    have hm : (List.range n).mapM (feedbackSlice d c K) =
        .ok ((List.range n).map fun i => closedLoopOf (evaluatedAt stored ov i)) := by
      refine mapM_eq_map fun i hi => ?_
      have hi' := List.mem_range.1 hi
      obtain ⟨v, h1, h2⟩ := numOrItem_value hn hc hf "v" (hW "v" (by decide)) i hi'
      obtain ⟨g, h3, h4⟩ := numOrItem_value hn hc hf "g" (hW "g" (by decide)) i hi'
      obtain ⟨_, _, h5⟩ := hcs i hi'
      simp only [feedbackSlice, h5, Except.bind, h1, h3, hK i hi', Except.map]
      unfold closedLoopOf stateSpaceOf
      rw [getD_nums_of_find? h2, getD_nums_of_find? h4]
      rfl
    rw [HM.bind_ok (a := (List.range n).map fun i => closedLoopOf (evaluatedAt stored ov i))
      (h' := h ++ [d] ++ ext) (by rw [HM.ofExcept_run, hm]), HM.pure_run, List.append_assoc]

/-- **C67.** What the closed loop means: the control law `u = -K x + u'` applied to the open
loop gives the returned matrices, with the gains where the documentation puts them. -/
theorem C67_control_law (D : Dict SVal) (x : Fin 4 → ℝ) (u : Fin 2 → ℝ) :
    (closedLoopOf D).1 *ᵥ x + (closedLoopOf D).2 *ᵥ u =
      (stateSpaceOf D).1 *ᵥ x + (stateSpaceOf D).2 *ᵥ (u - gainsOf D *ᵥ x) := by
  unfold closedLoopOf
  simp only [Matrix.sub_mulVec, Matrix.mulVec_sub, Matrix.mulVec_mulVec]
  abel

/-- **C67.** With all gains zero the model is the open loop model. -/
theorem C67_zero_gains (D : Dict SVal) (h : ∀ k ∈ gainNames, ∀ x, D.find? k = some x → x.val = 0) :
    closedLoopOf D = stateSpaceOf D := by
  have hz : ∀ k ∈ gainNames, Dict.getD (nums D) k 0 = 0 := by
    intro k hk
    unfold Dict.getD
    rw [find?_nums]
    cases hx : D.find? k with
    | none => rfl
    | some x => simp [h k hk x hx]
  have hg : gainsOf D = 0 := by
    unfold gainsOf
    rw [hz "kTphi_phi" (by decide), hz "kTphi_del" (by decide), hz "kTphi_phid" (by decide),
      hz "kTphi_deld" (by decide), hz "kTdel_phi" (by decide), hz "kTdel_del" (by decide),
      hz "kTdel_phid" (by decide), hz "kTdel_deld" (by decide)]
    ext i j; fin_cases i <;> fin_cases j <;> rfl
  unfold closedLoopOf
  rw [hg]; simp

/-- **C67.** Sweeping a gain over an empty array raises `IndexError`, unlike sweeping any other
parameter. -/
theorem C67_empty_gain_sweep (h : Heap) (s : ℕ) (stored : Dict SVal) (ov : Dict OVal)
    (hs : h[s]? = some (stored.map fun e => (e.1, .num e.2))) (hn : ov.keys.Nodup)
    (hc : Compatible stored ov 0) (hD : ∀ k ∈ feedbackKeys, stored.has k = true)
    (hsw : ∃ k ∈ gainNames, Swept stored ov k) :
    ∃ ext, formFeedbackMatrices s ov h = (.error .indexError, h ++ ext) := by
  have hW : ∀ k ∈ whippleKeys, stored.has k = true := fun k hk => hD k (List.mem_append.2 (Or.inl hk))
  have hG : ∀ k ∈ gainNames, stored.has k = true := fun k hk => hD k (List.mem_append.2 (Or.inr hk))
  obtain ⟨d, e, hf⟩ := parse_good h s stored ov 0 hs hn hc
  obtain ⟨c, ext, e2, _, _⟩ := C66_canonical_pointwise (h ++ [d]) s stored ov 0
    (Holds.append (h := h) (s := s) (stored := stored) hs [d]) hn hc hW
  refine ⟨[d] ++ ext, ?_⟩
  unfold formFeedbackMatrices
  rw [HM.bind_ok e, HM.bind_ok e2, HM.bind_ok (HM.load_run _ _)]
  have hg : (h ++ [d] ++ ext).getD h.length [] = d := by
    simp [List.getD_eq_getElem?_getD]
  simp only [hg]
  have hany : (sweptKeys stored ov).any (· ∈ gainNames) = true := by
    obtain ⟨k, h1, h2⟩ := hsw
    exact List.any_eq_true.2 ⟨k, mem_sweptKeys.2 h2, by simpa using h1⟩
  have hitem : ∀ k ∈ sweptKeys stored ov, firstGain d (sweptKeys stored ov) k = .error .indexError := by
    intro k hk
    obtain ⟨ys, h1, h2, _⟩ := (parsed_entry hn hc hf k).1 hk
    have hy : ys = [] := List.length_eq_zero_iff.1 h2
    subst hy
    simp [firstGain, pick, hk, itemOf, Dict.get, h1, Except.bind, MVal.item]
  have herr : gainNames.mapM (firstGain d (sweptKeys stored ov)) = .error .indexError := by
    refine mapM_error (fun k hk => ?_) ?_
    · by_cases hks : k ∈ sweptKeys stored ov
      · exact Or.inr (hitem k hks)
      · left
        obtain ⟨x, hx, _⟩ := pick_value hn hc hf k (hG k hk) 0 fun h0 => absurd h0 hks
        exact ⟨x, hx⟩
    · obtain ⟨k, h1, h2⟩ := hsw
      exact ⟨k, h1, hitem k (mem_sweptKeys.2 h2)⟩
  have hgs : ∀ n, gainStack d (sweptKeys stored ov) n = .error .indexError := by
    intro n
    unfold gainStack
    rw [if_pos hany, herr]; rfl
  rw [HM.bind_error (e := .indexError) (h' := h ++ [d] ++ ext) (by rw [HM.ofExcept_run, hgs]),
    List.append_assoc]

/-- All eight gains swept from the integer 0 to one half. -/
noncomputable def roundedSweep : Dict OVal :=
  gainNames.map fun k => (k, .arr [⟨.other, 0⟩, ⟨.pyFloat, 1 / 2⟩])

theorem find?_roundedSweep {k : String} (hk : k ∈ gainNames) :
    roundedSweep.find? k = some (.arr [⟨.other, 0⟩, ⟨.pyFloat, 1 / 2⟩]) := by
  have hn : roundedSweep.keys.Nodup := by
    unfold roundedSweep Dict.keys; rw [List.map_map]; decide
  exact find?_eq_of_mem_nodup hn (List.mem_map.2 ⟨k, hk, rfl⟩)

/-- **C67.** When all eight gains are swept and every array starts with an integer, numpy
rounds the gains towards zero: asking for gains of one half gives the open loop. -/
theorem C67_gains_rounded (h : Heap) (s : ℕ) (stored : Dict SVal)
    (hs : h[s]? = some (stored.map fun e => (e.1, .num e.2)))
    (hD : ∀ k ∈ feedbackKeys, stored.has k = true) :
    (∃ a ext, formFeedbackMatrices s roundedSweep h =
      (.ok (.many [a, stateSpaceOf (evaluatedAt stored roundedSweep 1)]), h ++ ext)) ∧
    gainsOf (evaluatedAt stored roundedSweep 1) = fun _ _ => 1 / 2 := by
  have hW : ∀ k ∈ whippleKeys, stored.has k = true := fun k hk => hD k (List.mem_append.2 (Or.inl hk))
  have hG : ∀ k ∈ gainNames, stored.has k = true := fun k hk => hD k (List.mem_append.2 (Or.inr hk))
  have hn : roundedSweep.keys.Nodup := by
    unfold roundedSweep Dict.keys; rw [List.map_map]; decide
  have hc : Compatible stored roundedSweep 2 := by
    constructor
    · intro k _ hm
      obtain ⟨k', _, he⟩ := List.mem_map.1 hm
      simp at he
    · intro k ys _ hm
      obtain ⟨k', _, he⟩ := List.mem_map.1 hm
      simp only [Prod.mk.injEq, OVal.arr.injEq] at he
      rw [← he.2]; rfl
  have hsw : ∀ k ∈ gainNames, k ∈ sweptKeys stored roundedSweep := fun k hk =>
    mem_sweptKeys.2 ⟨hG k hk, _, mem_of_find? (find?_roundedSweep hk)⟩
  refine ⟨?_, ?_⟩
  · obtain ⟨d, e, hf⟩ := parse_good h s stored roundedSweep 2 hs hn hc
    obtain ⟨c, ext, e2, _, hcs⟩ := C66_canonical_pointwise (h ++ [d]) s stored roundedSweep 2
      (Holds.append (h := h) (s := s) (stored := stored) hs [d]) hn hc hW
    have hd : ∀ k ∈ gainNames, d.find? k = some (.arr [⟨.other, 0⟩, ⟨.pyFloat, 1 / 2⟩]) := by
      intro k hk
      obtain ⟨x, hx⟩ := (Dict.has_iff_exists _ _).1 (hG k hk)
      rw [hf, hx, find?_roundedSweep hk]; rfl
    have hany : (sweptKeys stored roundedSweep).any (· ∈ gainNames) = true :=
      List.any_eq_true.2 ⟨"kTphi_phi", hsw _ (by decide), by decide⟩
    have hfirst : gainNames.mapM (firstGain d (sweptKeys stored roundedSweep)) =
        .ok (gainNames.map fun _ => ⟨.other, 0⟩) := by
      refine mapM_eq_map fun k hk => ?_
      simp [firstGain, pick, hsw k hk, itemOf, Dict.get, hd k hk, Except.bind, MVal.item]
    have htr : truncZ (1 / 2) = 0 := by
      unfold truncZ
      rw [if_pos (by norm_num)]
      have : ⌊(1 / 2 : ℝ)⌋ = 0 := by rw [Int.floor_eq_iff]; norm_num
      rw [this]; simp
    have hgs : ∃ K0, gainStack d (sweptKeys stored roundedSweep) 2 = .ok (.many [K0, 0]) := by
      have hrow : ∀ i (x : SVal), ([⟨.other, 0⟩, ⟨.pyFloat, 1 / 2⟩] : List SVal)[i]? = some x →
          ((gainNames.zip (gainNames.map fun _ => (⟨.other, 0⟩ : SVal))).mapM
            (gainEntry d (sweptKeys stored roundedSweep) true i)).map gainMatrix =
          .ok (gainMatrix (gainNames.map fun _ => truncZ x.val)) := by
        intro i x hx
        have hzip : gainNames.zip (gainNames.map fun _ => (⟨.other, 0⟩ : SVal)) =
            gainNames.map fun k => (k, ⟨.other, 0⟩) := rfl
        have hm : gainNames.mapM (gainEntry d (sweptKeys stored roundedSweep) true i ∘ fun k =>
            (k, (⟨.other, 0⟩ : SVal))) = .ok (gainNames.map fun _ => truncZ x.val) := by
          refine mapM_eq_map fun k hk => ?_
          simp only [Function.comp_apply, gainEntry, if_pos (hsw k hk), itemOf, Dict.get, hd k hk,
            Except.bind, MVal.item, hx, Except.map, if_true]
        rw [hzip, List.mapM_map, hm]; rfl
      have hall : ((gainNames.map fun _ => (⟨.other, 0⟩ : SVal)).all fun x =>
          decide (x.ty = .other)) = true := by
        rw [List.all_eq_true]
        intro x hx
        obtain ⟨_, _, rfl⟩ := List.mem_map.1 hx
        simp
      refine ⟨gainMatrix (gainNames.map fun _ => truncZ 0), ?_⟩
      unfold gainStack
      rw [if_pos hany, hfirst]
      simp only [Except.bind, hall]
      have h2 : (List.range 2).mapM (fun i =>
          ((gainNames.zip (gainNames.map fun _ => (⟨.other, 0⟩ : SVal))).mapM
            (gainEntry d (sweptKeys stored roundedSweep) true i)).map gainMatrix) =
          .ok [gainMatrix (gainNames.map fun _ => truncZ 0),
            gainMatrix (gainNames.map fun _ => truncZ (1 / 2))] := by
        have hr : List.range 2 = [0, 1] := rfl
        rw [hr, List.mapM_cons, List.mapM_cons, List.mapM_nil, hrow 0 _ rfl, hrow 1 _ rfl]
        rfl
      have hz : gainMatrix (gainNames.map fun _ => (0 : ℝ)) = 0 := by
        ext i j
        fin_cases i <;> fin_cases j <;> rfl
      rw [h2, htr, hz]
      rfl
    obtain ⟨K0, eK⟩ := hgs
    have hne : sweptKeys stored roundedSweep ≠ [] := List.ne_nil_of_mem (hsw "kTphi_phi" (by decide))
    have hsl : ∀ i (Ki : Matrix (Fin 2) (Fin 4) ℝ), i < 2 →
        (Stack.many [K0, 0]).slice i = .ok Ki →
        feedbackSlice d c (.many [K0, 0]) i = .ok
          ((stateSpaceOf (evaluatedAt stored roundedSweep i)).1 -
            (stateSpaceOf (evaluatedAt stored roundedSweep i)).2 * Ki,
            (stateSpaceOf (evaluatedAt stored roundedSweep i)).2) := by
      intro i Ki hi hKi
      obtain ⟨v, h1, h2⟩ := numOrItem_value hn hc hf "v" (hW "v" (by decide)) i hi
      obtain ⟨g, h3, h4⟩ := numOrItem_value hn hc hf "g" (hW "g" (by decide)) i hi
      obtain ⟨_, _, h5⟩ := hcs i hi
      simp only [feedbackSlice, h5, Except.bind, h1, h3, hKi, Except.map]
      unfold stateSpaceOf
      rw [getD_nums_of_find? h2, getD_nums_of_find? h4]
      rfl
    refine ⟨((stateSpaceOf (evaluatedAt stored roundedSweep 0)).1 -
        (stateSpaceOf (evaluatedAt stored roundedSweep 0)).2 * K0,
        (stateSpaceOf (evaluatedAt stored roundedSweep 0)).2), [d] ++ ext, ?_⟩
    unfold formFeedbackMatrices
    rw [HM.bind_ok e, HM.bind_ok e2, HM.bind_ok (HM.load_run _ _)]
    have hg : (h ++ [d] ++ ext).getD h.length [] = d := by
      simp [List.getD_eq_getElem?_getD]
    simp only [hg, if_neg hne, Option.getD_some]
    rw [HM.bind_ok (a := .many [K0, 0]) (h' := h ++ [d] ++ ext) (by rw [HM.ofExcept_run, eK])]
    have hm : (List.range 2).mapM (feedbackSlice d c (.many [K0, 0])) = .ok
        [((stateSpaceOf (evaluatedAt stored roundedSweep 0)).1 -
            (stateSpaceOf (evaluatedAt stored roundedSweep 0)).2 * K0,
            (stateSpaceOf (evaluatedAt stored roundedSweep 0)).2),
          stateSpaceOf (evaluatedAt stored roundedSweep 1)] := by
      have hr : List.range 2 = [0, 1] := rfl
      rw [hr, List.mapM_cons, List.mapM_cons, List.mapM_nil, hsl 0 K0 (by norm_num) rfl,
        hsl 1 0 (by norm_num) rfl]
      simp [bind, Except.bind, pure, Except.pure]
    rw [HM.bind_ok (h' := h ++ [d] ++ ext) (by rw [HM.ofExcept_run, hm]), HM.pure_run, List.append_assoc]
  · have hv : ∀ k ∈ gainNames, Dict.getD (nums (evaluatedAt stored roundedSweep 1)) k 0 = 1 / 2 := by
      intro k hk
      obtain ⟨x, hx⟩ := (Dict.has_iff_exists _ _).1 (hG k hk)
      unfold Dict.getD
      rw [find?_nums, find?_evaluatedAt, hx, find?_roundedSweep hk]
      rfl
    unfold gainsOf
    rw [hv "kTphi_phi" (by decide), hv "kTphi_del" (by decide), hv "kTphi_phid" (by decide),
      hv "kTphi_deld" (by decide), hv "kTdel_phi" (by decide), hv "kTdel_del" (by decide),
      hv "kTdel_phid" (by decide), hv "kTdel_deld" (by decide)]
    ext i j
    fin_cases i <;> fin_cases j <;> rfl

/-- A sweep that meets the hypotheses of `C67_closed_loop`: the speed and one gain vary. -/
theorem example_feedback_usable :
    let ov : Dict OVal := [("v", .arr [⟨.pyFloat, 1⟩, ⟨.pyFloat, 2⟩]),
      ("kTdel_phid", .arr [⟨.other, 0⟩, ⟨.pyFloat, -1 / 2⟩])]
    Compatible (exampleSet .feedback) ov 2 ∧ ov.keys.Nodup ∧
    (∀ k ∈ feedbackKeys, (exampleSet .feedback).has k = true) ∧
    Swept (exampleSet .feedback) ov "kTdel_phid" ∧ GainsStoredExactly (exampleSet .feedback) ov 2 := by
  refine ⟨⟨fun k _ hm => by simp at hm, fun k ys _ hm => ?_⟩, by decide, fun k hk => ?_,
    ⟨by rw [example_has]; decide, _, by simp; rfl⟩, Or.inl ⟨"kTphi_phi", by decide, ⟨.pyFloat, 1⟩, ?_,
      by decide⟩⟩
  · simp only [List.mem_cons, Prod.mk.injEq, OVal.arr.injEq, List.not_mem_nil, or_false] at hm
    rcases hm with ⟨_, rfl⟩ | ⟨_, rfl⟩ <;> rfl
  · rw [example_has]
    exact (by decide : ∀ k ∈ feedbackKeys, decide (k ∈ SetKind.feedback.parStrings.keys) = true) k hk
  · have hf : (exampleSet .feedback).find? "kTphi_phi" = some ⟨.pyFloat, 1⟩ := by
      unfold exampleSet
      simp [SetKind.parStrings, feedbackStrings, Dict.keys, Dict.find?]
    rw [find?_evaluatedAt, hf]
    simp [Dict.find?, chosen]

end BP
