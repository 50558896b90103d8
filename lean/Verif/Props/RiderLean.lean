import Verif.Props.Models
import Verif.Spec.EvalLinear

/-!
# Properties of the rider lean model of models.py: C69
-/

set_option linter.unusedSimpArgs false

namespace BP

open Matrix Spec

/-- The matrices for plain numbers: `eval_linear` at zero coordinates except the pitch, zero
speeds except the rear wheel rate `-v/rr`, zero inputs, and the parameters in its order,
without the row and column of the pitch `q5` and without the column of the input `T6`. -/
noncomputable def Spec.leanOf (pitch : ℝ → ℝ → ℝ → ℝ → ℝ → ℝ → ℝ → ℝ)
    (evalLinear : (Fin 9 → ℝ) → (Fin 4 → ℝ) → (Fin 4 → ℝ) → List ℝ → Linear13) (D : Dict SVal) :
    Matrix (Fin 12) (Fin 12) ℝ × Matrix (Fin 12) (Fin 3) ℝ :=
  let p := fun k => Dict.getD (nums D) k 0
  let l := evalLinear
    ![0, 0, 0, 0, pitch 0 0 (p "rf") (p "rr") (p "d1") (p "d2") (p "d3"), 0, 0, 0, 0]
    ![0, -p "v" / p "rr", 0, 0] ![0, 0, 0, 0] (evalLinearSlots.map p)
  (l.1.submatrix (Fin.succAbove 4) (Fin.succAbove 4), l.2.submatrix (Fin.succAbove 4) (Fin.succAbove 1))

theorem keepRows_eq (l : Linear13) : keepRows l =
    (l.1.submatrix (Fin.succAbove 4) (Fin.succAbove 4),
      l.2.submatrix (Fin.succAbove 4) (Fin.succAbove 1)) := by
  have ha : ∀ i : Fin 12, aIdxs.getD i 0 = Fin.succAbove 4 i := by decide
  have hb : ∀ j : Fin 3, bIdxs.getD j 0 = Fin.succAbove 1 j := by decide
  unfold keepRows
  refine Prod.ext ?_ ?_
  · ext i j; simp only [Matrix.submatrix_apply, ha]
  · ext i j; simp only [Matrix.submatrix_apply, ha, hb]

/-- The keys the rider lean model needs. -/
def leanKeys : List String := riderLeanStrings.keys

theorem lean_keys_eq : leanKeys = evalLinearSlots ++ ["v"] := by decide

theorem lean_find?_erase {β : Type} (d : Dict β) (k k' : String) :
    (d.erase k).find? k' = if k' = k then none else d.find? k' := by
  induction d with
  | nil => simp [Dict.erase]
  | cons e d ih =>
    obtain ⟨a, v⟩ := e
    have hc : Dict.erase ((a, v) :: d) k = if a ≠ k then (a, v) :: Dict.erase d k else Dict.erase d k := by
      unfold Dict.erase; rw [List.filter_cons]; simp
    rw [hc, Dict.find?_cons]
    by_cases h1 : a = k
    · rw [if_neg (by simpa using h1), ih]
      by_cases h2 : k' = k
      · simp [h2]
      · have : a ≠ k' := by rw [h1]; exact Ne.symm h2
        simp [h2, this]
    · rw [if_pos h1, Dict.find?_cons, ih]
      by_cases h2 : k' = k
      · have : a ≠ k' := by rw [h2]; exact h1
        simp [h2, h1]
      · simp [h2]

/-- The evaluation at one position, when the dictionary holds the numbers of `D` under all
keys but `v`. -/
theorem linearAt_run (pitch : ℝ → ℝ → ℝ → ℝ → ℝ → ℝ → ℝ → ℝ)
    (evalLinear : (Fin 9 → ℝ) → (Fin 4 → ℝ) → (Fin 4 → ℝ) → List ℝ → Linear13)
    (dm : Dict MVal) (D : Dict SVal) (v : SVal) (hv : D.find? "v" = some v)
    (hno : dm.find? "v" = none)
    (h : ∀ k ∈ evalLinearSlots, ∃ x, dm.find? k = some (.num x) ∧ D.find? k = some x) :
    linearAt pitch evalLinear dm v = .ok (leanOf pitch evalLinear D) := by
  have hnum : ∀ k ∈ evalLinearSlots, ∃ x, numOf dm k = .ok x ∧ x.val = Dict.getD (nums D) k 0 := by
    intro k hk
    obtain ⟨x, h1, h2⟩ := h k hk
    exact ⟨x, by simp [numOf, Dict.get, h1, Except.bind, MVal.asNum], (getD_nums_of_find? h2).symm⟩
  obtain ⟨rf, h1, h2⟩ := hnum "rf" (by decide)
  obtain ⟨rr, h3, h4⟩ := hnum "rr" (by decide)
  obtain ⟨d1, h5, h6⟩ := hnum "d1" (by decide)
  obtain ⟨d2, h7, h8⟩ := hnum "d2" (by decide)
  obtain ⟨d3, h9, h10⟩ := hnum "d3" (by decide)
  have hfil : (riderLeanStrings.keys.filter fun k => dm.has k) = evalLinearSlots := by
    have he : riderLeanStrings.keys = evalLinearSlots ++ ["v"] := lean_keys_eq
    rw [he, List.filter_append]
    have e1 : evalLinearSlots.filter (fun k => dm.has k) = evalLinearSlots := by
      rw [List.filter_eq_self]
      intro k hk
      obtain ⟨x, hx, _⟩ := h k hk
      exact (Dict.has_iff_exists _ _).2 ⟨_, hx⟩
    have e2 : ["v"].filter (fun k => dm.has k) = [] := by
      simp [Dict.has, hno]
    rw [e1, e2, List.append_nil]
  have hmap : ∃ ps, evalLinearSlots.mapM (numOf dm) = .ok ps ∧
      ps.map SVal.val = evalLinearSlots.map fun k => Dict.getD (nums D) k 0 := by
    refine ⟨evalLinearSlots.map fun k => (D.find? k).getD ⟨.other, 0⟩, mapM_eq_map fun k hk => ?_, ?_⟩
    · obtain ⟨x, hx1, hx2⟩ := h k hk
      simp [numOf, Dict.get, hx1, Except.bind, MVal.asNum, hx2]
    · rw [List.map_map]
      refine List.map_congr_left fun k hk => ?_
      obtain ⟨x, hx1, hx2⟩ := h k hk
      rw [getD_nums_of_find? hx2]; simp [hx2]
  obtain ⟨ps, e1, e2⟩ := hmap
  unfold linearAt
  simp only [h1, h3, h5, h7, h9, Except.bind, hfil, e1, Except.map, keepRows_eq]
  rw [e2, h2, h4, h6, h8, h10, ← getD_nums_of_find? hv]
  have hq : ∀ x : ℝ, (Function.update 0 4 x : Fin 9 → ℝ) = ![0, 0, 0, 0, x, 0, 0, 0, 0] := by
    intro x; ext i; fin_cases i <;> rfl
  have hu : ∀ x : ℝ, (Function.update 0 1 x : Fin 4 → ℝ) = ![0, x, 0, 0] := by
    intro x; ext i; fin_cases i <;> rfl
  have hr : (0 : Fin 4 → ℝ) = ![0, 0, 0, 0] := by ext i; fin_cases i <;> rfl
  rw [hq, hu, hr]
  rfl

/-- The inner loop writes the `i`-th values into `mutable_par` and takes out the speed. -/
theorem setLeanSlice_run (h0 : Heap) (par : ℕ) (dpar : Dict MVal) (i : ℕ) (keys : List String)
    (hp : h0[par]? = some dpar) (it : String → SVal)
    (hk : ∀ k ∈ keys, itemOf dpar k i = .ok (it k)) (dm : Dict MVal) (v : Option SVal) :
    ∃ dm', HM.loop (setLeanSlice par h0.length i) v keys (h0 ++ [dm]) =
        (.ok (if "v" ∈ keys then some (it "v") else v), h0 ++ [dm']) ∧
      ∀ k, dm'.find? k = if k ∈ keys ∧ k ≠ "v" then some (.num (it k)) else dm.find? k := by
  induction keys generalizing dm v with
  | nil => exact ⟨dm, rfl, fun k => by simp⟩
  | cons key keys ih =>
    have hpl : par < h0.length := by
      by_contra hc
      rw [List.getElem?_eq_none (by omega)] at hp; cases hp
    have hg : (h0 ++ [dm]).getD par [] = dpar := by
      rw [List.getD_eq_getElem?_getD, List.getElem?_append_left hpl, hp]; rfl
    by_cases hv : key = "v"
    · have e1 : setLeanSlice par h0.length i v key (h0 ++ [dm]) = (.ok (some (it key)), h0 ++ [dm]) := by
        unfold setLeanSlice
        rw [HM.bind_ok (HM.load_run _ _), hg, HM.bind_ok (h' := h0 ++ [dm]) (a := it key)
          (by rw [HM.ofExcept_run, hk key (by simp)]), if_pos hv, HM.pure_run]
      obtain ⟨dm', e2, hf⟩ := ih (fun k hk' => hk k (by simp [hk'])) dm (some (it key))
      refine ⟨dm', ?_, fun k => ?_⟩
      · simp only [HM.loop, HM.bind, e1, e2]
        subst hv
        by_cases h1 : "v" ∈ keys <;> simp [h1]
      · rw [hf k]
        by_cases h1 : k = "v"
        · simp [h1]
        · have : k ≠ key := by rw [hv]; exact h1
          simp [h1, this]
    · have e1 : setLeanSlice par h0.length i v key (h0 ++ [dm]) =
          (.ok v, h0 ++ [dm.set key (.num (it key))]) := by
        unfold setLeanSlice
        rw [HM.bind_ok (HM.load_run _ _), hg, HM.bind_ok (h' := h0 ++ [dm]) (a := it key)
          (by rw [HM.ofExcept_run, hk key (by simp)]), if_neg hv, HM.bind_ok (HM.load_run _ _)]
        have hg2 : (h0 ++ [dm]).getD h0.length [] = dm := by
          simp [List.getD_eq_getElem?_getD]
        rw [hg2, HM.bind_ok (HM.store_run _ _ _), HM.pure_run,
          List.set_append_right _ _ (le_refl _)]
        simp
      obtain ⟨dm', e2, hf⟩ := ih (fun k hk' => hk k (by simp [hk'])) (dm.set key (.num (it key))) v
      refine ⟨dm', ?_, fun k => ?_⟩
      · simp only [HM.loop, HM.bind, e1, e2]
        have : ("v" ∈ key :: keys) ↔ "v" ∈ keys := by simp [Ne.symm hv]
        simp only [this]
      · rw [hf k]
        by_cases h1 : k ∈ keys
        · by_cases h2 : k = "v"
          · subst h2
            simp [Dict.find?_set_of_ne _ _ hv]
          · simp [h1, h2]
        · by_cases h2 : k = key
          · subst h2; simp [hv]
          · simp [h1, h2, Dict.find?_set_of_ne _ _ (Ne.symm h2)]

open Classical in
/-- **C69.** The rider lean model, for every usable combination of single numbers and arrays:
the call succeeds, no existing dictionary changes, and for every position the matrices are
those of `eval_linear` with each parameter in its slot, the pitch in `q5`, the wheel rate in
`u6`, without the rows and columns of `q5` and `T6`. -/
theorem C69_rider_lean_matrices (pitch : ℝ → ℝ → ℝ → ℝ → ℝ → ℝ → ℝ → ℝ)
    (evalLinear : (Fin 9 → ℝ) → (Fin 4 → ℝ) → (Fin 4 → ℝ) → List ℝ → Linear13)
    (h : Heap) (s : ℕ) (stored : Dict SVal) (ov : Dict OVal) (n : ℕ)
    (hs : h[s]? = some (stored.map fun e => (e.1, .num e.2))) (hn : ov.keys.Nodup)
    (hc : Compatible stored ov n) (hD : ∀ k ∈ leanKeys, stored.has k = true) :
    ∃ ext, formRiderLeanMatrices pitch evalLinear s ov h = (.ok (
      if ∃ k, Swept stored ov k then
        .many ((List.range n).map fun i => leanOf pitch evalLinear (evaluatedAt stored ov i))
      else .one (leanOf pitch evalLinear (evaluatedAt stored ov 0))), h ++ ext) := by
  obtain ⟨d, e, hf⟩ := parse_good h s stored ov n hs hn hc
  have hent := fun k => parsed_entry hn hc hf k
  have hslot : ∀ k ∈ evalLinearSlots, stored.has k = true ∧ k ≠ "v" := by
    intro k hk
    refine ⟨hD k ?_, ?_⟩
    · rw [lean_keys_eq]; exact List.mem_append.2 (Or.inl hk)
    · rintro rfl; revert hk; decide
  have hv : stored.has "v" = true := hD "v" (by decide)
  obtain ⟨v, hdv⟩ : ∃ v, d.find? "v" = some v := by
    obtain ⟨x, hx⟩ := (Dict.has_iff_exists _ _).1 hv
    exact ⟨_, by rw [hf, hx]; rfl⟩
  unfold formRiderLeanMatrices
  rw [HM.bind_ok e, HM.bind_ok (HM.load_run _ _)]
  have hg : (h ++ [d]).getD h.length [] = d := by simp [List.getD_eq_getElem?_getD]
  simp only [hg]
  rw [HM.bind_ok (a := v) (h' := h ++ [d]) (by rw [HM.ofExcept_run]; simp [Dict.get, hdv]),
    HM.bind_ok (HM.alloc_run _ _)]
  have hiff : (∃ k, Swept stored ov k) ↔ sweptKeys stored ov ≠ [] := by
    constructor
    · rintro ⟨k, hk⟩ h0
      have := mem_sweptKeys.2 hk
      rw [h0] at this; simp at this
    · intro h0
      obtain ⟨k, hk⟩ := List.exists_mem_of_ne_nil _ h0
      exact ⟨k, mem_sweptKeys.1 hk⟩
  set h0 := h ++ [d] with hh0
  by_cases hnil : sweptKeys stored ov = []
  · rw [if_neg (fun h0 => (hiff.1 h0) hnil), if_pos hnil]
    have hval : ∀ k, stored.has k = true → ∃ x, d.find? k = some (.num x) ∧
        (evaluatedAt stored ov 0).find? k = some x := by
      intro k hk
      rcases (hent k).2 (by rw [hnil]; simp) with ⟨_, h2⟩ | ⟨x, h1, h2⟩
      · have := has_evaluatedAt stored ov 0 k
        rw [hk] at this
        unfold Dict.has at this; rw [h2 0] at this; cases this
      · exact ⟨x, h1, h2 0⟩
    obtain ⟨x, hx1, hx2⟩ := hval "v" hv
    have hvx : v = .num x := by rw [hx1] at hdv; exact (Option.some.inj hdv).symm
    have hl : linearAt pitch evalLinear (d.erase "v") x =
        .ok (leanOf pitch evalLinear (evaluatedAt stored ov 0)) := by
      refine linearAt_run pitch evalLinear _ _ x hx2 (by rw [lean_find?_erase]; simp) fun k hk => ?_
      rw [lean_find?_erase, if_neg (hslot k hk).2]
      exact hval k (hslot k hk).1
    rw [hvx, HM.bind_ok (a := x) (h' := h0 ++ [d.erase "v"]) (by rw [HM.ofExcept_run]; rfl),
      HM.bind_ok (HM.load_run _ _)]
    have hg2 : (h0 ++ [d.erase "v"]).getD h0.length [] = d.erase "v" := by
      simp [List.getD_eq_getElem?_getD]
    rw [hg2, HM.bind_ok (h' := h0 ++ [d.erase "v"]) (by rw [HM.ofExcept_run, hl]), HM.pure_run]
    exact ⟨[d, d.erase "v"], by simp [hh0]⟩
  · rw [if_pos (hiff.2 hnil), if_neg hnil]
    simp only [if_neg hnil, Option.getD_some]
    set keys := sweptKeys stored ov with hkeys
    have hp : h0[h.length]? = some d := by simp [hh0]
    let P : Heap → Prop := fun h' => ∃ dm, h' = h0 ++ [dm] ∧ dm.find? "v" = none ∧
      ∀ k, k ∉ keys → k ≠ "v" → dm.find? k = d.find? k
    obtain ⟨h', e1, dm, rfl, _⟩ := HM.collect_run
      (leanSlice pitch evalLinear h.length h0.length keys v.asNum.toOption)
      (fun i => .ok (leanOf pitch evalLinear (evaluatedAt stored ov i))) P (List.range n)
      (by
        rintro i hi h1 ⟨dm, rfl, hdv0, hdm⟩
        have hi' : i < n := List.mem_range.1 hi
        have hit : ∀ k ∈ keys, itemOf d k i =
            .ok (((evaluatedAt stored ov i).find? k).getD ⟨.other, 0⟩) := by
          intro k hk
          obtain ⟨ys, h1, h2, h3⟩ := (hent k).1 hk
          have hi2 : i < ys.length := by omega
          rw [h3 i hi2]
          simp [itemOf, Dict.get, h1, Except.bind, MVal.item, List.getElem?_eq_getElem hi2]
        obtain ⟨dm1, e1, hf1⟩ := setLeanSlice_run h0 h.length d i keys hp _ hit dm v.asNum.toOption
        obtain ⟨x, hx1, hx2⟩ : ∃ x, (if "v" ∈ keys then
            some (((evaluatedAt stored ov i).find? "v").getD ⟨.other, 0⟩) else v.asNum.toOption) = some x ∧
            (evaluatedAt stored ov i).find? "v" = some x := by
          by_cases hvk : "v" ∈ keys
          · obtain ⟨ys, h1, h2, h3⟩ := (hent "v").1 hvk
            have hi2 : i < ys.length := by omega
            exact ⟨ys[i], by simp [hvk, h3 i hi2], h3 i hi2⟩
          · rcases (hent "v").2 hvk with ⟨h1, _⟩ | ⟨x, h1, h2⟩
            · rw [h1] at hdv; cases hdv
            · have hvx : v = .num x := by rw [h1] at hdv; exact (Option.some.inj hdv).symm
              exact ⟨x, by simp [hvk, hvx, MVal.asNum, Except.toOption], h2 i⟩
        have hl : linearAt pitch evalLinear dm1 x =
            .ok (leanOf pitch evalLinear (evaluatedAt stored ov i)) := by
          refine linearAt_run pitch evalLinear _ _ x hx2 (by rw [hf1]; simp [hdv0]) fun k hk => ?_
          rw [hf1 k]
          by_cases hks : k ∈ keys
          · obtain ⟨ys, h1, h2, h3⟩ := (hent k).1 hks
            have hi2 : i < ys.length := by omega
            refine ⟨ys[i], by simp [hks, (hslot k hk).2, h3 i hi2], h3 i hi2⟩
          · rw [if_neg (fun h0 => hks h0.1), hdm k hks (hslot k hk).2]
            rcases (hent k).2 hks with ⟨_, h2⟩ | ⟨x, h1, h2⟩
            · have := has_evaluatedAt stored ov i k
              rw [(hslot k hk).1] at this
              unfold Dict.has at this; rw [h2 i] at this; cases this
            · exact ⟨x, h1, h2 i⟩
        refine ⟨h0 ++ [dm1], ?_, dm1, rfl, by rw [hf1]; simp [hdv0], fun k h1 h2 => ?_⟩
        · unfold leanSlice
          rw [HM.bind_ok e1, HM.bind_ok (HM.load_run _ _), hx1]
          have hg2 : (h0 ++ [dm1]).getD h0.length [] = dm1 := by
            simp [List.getD_eq_getElem?_getD]
          simp only [hg2]
          rw [HM.ofExcept_run, hl]
        · rw [hf1 k, if_neg (fun h0 => h1 h0.1), hdm k h1 h2])
      (h0 ++ [d.erase "v"]) ⟨d.erase "v", rfl, by rw [lean_find?_erase]; simp, fun k _ h2 => by
        rw [lean_find?_erase, if_neg h2]⟩
    rw [mapM_eq_map (g := fun i => leanOf pitch evalLinear (evaluatedAt stored ov i))
      (fun _ _ => rfl)] at e1
    refine ⟨[d, dm], ?_⟩
    rw [HM.bind_ok e1, HM.pure_run]
    simp [hh0]

/-- The names of the states of the returned matrices, models.py:1272-1273, are the names of
the rows of `eval_linear` without `q5`: `q1..q9` and `u4, u6, u7, u9`. -/
theorem C69_states : (["q1", "q2", "q3", "q4", "q6", "q7", "q8", "q9", "u4", "u6", "u7", "u9"] : List String) =
    (List.finRange 12).map fun i => (["q1", "q2", "q3", "q4", "q5", "q6", "q7", "q8", "q9", "u4", "u6",
      "u7", "u9"] : List String).getD (Fin.succAbove (4 : Fin 13) i) "" := by decide

/-- Keyword arguments meeting the hypotheses of `C69_rider_lean_matrices`. -/
theorem example_lean_usable :
    let ov : Dict OVal := [("rr", .arr [⟨.pyFloat, 1⟩, ⟨.pyFloat, 2⟩]), ("mg", .num ⟨.other, 5⟩)]
    Compatible (exampleSet .riderLean) ov 2 ∧ ov.keys.Nodup ∧ Swept (exampleSet .riderLean) ov "rr" ∧
    (∀ k ∈ leanKeys, (exampleSet .riderLean).has k = true) := by
  refine ⟨⟨fun k _ hm => by simp at hm, fun k ys _ hm => ?_⟩, by decide,
    ⟨by rw [example_has]; decide, _, by simp; rfl⟩, fun k hk => ?_⟩
  · simp only [List.mem_cons, Prod.mk.injEq, OVal.arr.injEq, List.not_mem_nil, or_false,
      reduceCtorEq, and_false] at hm
    rw [hm.2]; rfl
  · rw [example_has]
    exact (by decide : ∀ k ∈ leanKeys, decide (k ∈ SetKind.riderLean.parStrings.keys) = true) k hk

end BP
