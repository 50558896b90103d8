import Mathlib.Tactic.IntervalCases
import Verif.Model.Main
import Verif.Props.Com
import Verif.Props.Inertia
import Verif.Props.Geometry
import Verif.Props.Conversions
import Verif.Props.Period

/-!
# calculate_benchmark_from_measured and the principal parameters: C33, C41, C53, C80, C81
-/

set_option linter.unusedSimpArgs false

namespace BP

open Real Matrix Spec

/-! ## C33 -/

/-- The documented parameters of `Moore2019ParameterSet` (`par_strings`,
parameter_sets.py:1035-1071), which its constructor checks. -/
def Spec.moore2019Documented : List String :=
  ["alphaD", "alphaH", "alphaP", "c", "g", "kDaa", "kDbb", "kDyy", "kFaa", "kFyy", "kHaa", "kHbb",
   "kHyy", "kPaa", "kPbb", "kPyy", "kRaa", "kRyy", "lP", "lam", "mD", "mF", "mH", "mP", "mR", "rF",
   "rR", "v", "w", "wP", "xD", "xH", "xP", "zD", "zH", "zP"]

/-- **C33 fails.** No dictionary with exactly the documented parameters, or with any other
key but `yD` added, converts: `KeyError('yD')` is raised. -/
theorem C33_documented_set_does_not_convert (p : Dict ℝ)
    (h : ∀ k ∈ moore2019Documented, p.has k = true) (hy : p.has "yD" = false) :
    convertPrincipalToBenchmark p = .error (.keyError "yD") := by
  have hs : ∀ k ∈ moore2019Documented, ∃ v, p.find? k = some v := fun k hk =>
    (Dict.has_iff_exists _ _).1 (h k hk)
  have hn : p.find? "yD" = none := by
    unfold Dict.has at hy
    cases hf : p.find? "yD" with
    | none => rfl
    | some v => rw [hf] at hy; simp at hy
  obtain ⟨_, h1⟩ := hs "w" (by simp [moore2019Documented])
  obtain ⟨_, h2⟩ := hs "c" (by simp [moore2019Documented])
  obtain ⟨_, h3⟩ := hs "lam" (by simp [moore2019Documented])
  obtain ⟨_, h4⟩ := hs "g" (by simp [moore2019Documented])
  obtain ⟨_, h5⟩ := hs "v" (by simp [moore2019Documented])
  obtain ⟨_, h6⟩ := hs "xD" (by simp [moore2019Documented])
  obtain ⟨_, h7⟩ := hs "xP" (by simp [moore2019Documented])
  unfold convertPrincipalToBenchmark
  simp [principalKeys, Dict.require, h1, h2, h3, h4, h5, h6, h7, hn]

/-- **C33, partial.** With the three lateral coordinates added every documented set
converts.  Missing: these are not documented parameters, see above. -/
theorem C33_converts_partial (p : Dict ℝ)
    (h : ∀ k ∈ moore2019Documented ++ ["yD", "yP", "yH"], p.has k = true) :
    ∃ b, convertPrincipalToBenchmark p = .ok b := by
  refine (C32_succeeds_iff p).1.2 fun k hk => h k ?_
  have : ∀ k ∈ principalKeys, k ∈ moore2019Documented ++ ["yD", "yP", "yH"] := by
    simp [principalKeys, moore2019Documented]
  exact this k hk

/-- non-vacuity of C33 -/
example : ∃ p : Dict ℝ, (∀ k ∈ moore2019Documented, p.has k = true) ∧ p.has "yD" = false := by
  refine ⟨moore2019Documented.map fun k => (k, 1), ?_, ?_⟩
  · intro k hk
    rw [Dict.has_iff_mem_keys, Dict.keys, List.map_map]
    simpa [Function.comp_def] using hk
  · rw [Bool.eq_false_iff, Ne, Dict.has_iff_mem_keys, Dict.keys, List.map_map]
    simp [moore2019Documented]

/-! ## The stages of calculate_benchmark_from_measured -/

theorem foldlM_frame {E : Type} (step : Dict ℝ → E → Except PyErr (Dict ℝ)) (K : E → List String)
    (val : E → String → Option ℝ) (Q : E → Prop)
    (hstep : ∀ acc e out, step acc e = .ok out → Q e ∧ (∀ k ∈ K e, out.find? k = val e k) ∧
      ∀ k, k ∉ K e → out.find? k = acc.find? k) :
    ∀ (l : List E) (acc out : Dict ℝ), l.Pairwise (fun e e' => ∀ k ∈ K e, k ∉ K e') →
      l.foldlM step acc = .ok out →
      (∀ e ∈ l, Q e ∧ ∀ k ∈ K e, out.find? k = val e k) ∧
      ∀ k, (∀ e ∈ l, k ∉ K e) → out.find? k = acc.find? k := by
  intro l
  induction l with
  | nil =>
    intro acc out _ h
    have : acc = out := by simpa [pure, Except.pure] using h
    subst this
    simp
  | cons e l ih =>
    intro acc out hp h
    rw [List.pairwise_cons] at hp
    rw [List.foldlM_cons] at h
    cases hs : step acc e with
    | error err => rw [hs] at h; simp [bind, Except.bind] at h
    | ok acc1 =>
      rw [hs] at h
      have h : l.foldlM step acc1 = .ok out := h
      obtain ⟨q, hv, hf⟩ := hstep acc e acc1 hs
      obtain ⟨i1, i2⟩ := ih acc1 out hp.2 h
      refine ⟨?_, ?_⟩
      · intro e' he'
        rcases List.mem_cons.1 he' with rfl | he'
        · refine ⟨q, fun k hk => ?_⟩
          rw [i2 k fun e'' he'' => hp.1 e'' he'' k hk]
          exact hv k hk
        · exact i1 e' he'
      · intro k hk
        rw [i2 k fun e' he' => hk e' (List.mem_cons_of_mem _ he')]
        exact hf k (hk e (by simp))

/-- Keys `k` and `k'` with equal prefix differ in the rest. -/
theorem str_append_inj (a b c : String) : a ++ b = a ++ c ↔ b = c := by
  constructor
  · intro h
    have := congrArg String.toList h
    rw [String.toList_append, String.toList_append] at this
    exact String.toList_inj.1 (List.append_cancel_left this)
  · rintro rfl; rfl

theorem centreStep_ok (acc : Dict ℝ) (e : String × List (ℝ × ℝ × ℝ)) (out : Dict ℝ)
    (h : centreStep acc e = .ok out) :
    (∃ x z, centerOfMass (e.2.map fun t => (t.1, t.2.1)) = .ok (x, z) ∧
      out.find? ("x" ++ e.1) = some x ∧ out.find? ("z" ++ e.1) = some z) ∧
    ∀ k, k ∉ ["x" ++ e.1, "z" ++ e.1] → out.find? k = acc.find? k := by
  unfold centreStep at h
  split at h
  · cases h
  · rename_i x z hc
    simp only [Except.ok.injEq] at h
    subst h
    have hne : "z" ++ e.1 ≠ "x" ++ e.1 := by
      intro hh
      have := congrArg String.toList hh
      simp [String.toList_append] at this
    refine ⟨⟨x, z, hc, ?_, ?_⟩, ?_⟩
    · rw [Dict.find?_set, if_neg hne, Dict.find?_set, if_pos rfl]
    · rw [Dict.find?_set, if_pos rfl]
    · intro k hk
      simp only [List.mem_cons, List.not_mem_nil, or_false, not_or] at hk
      rw [Dict.find?_set, if_neg (Ne.symm hk.2), Dict.find?_set, if_neg (Ne.symm hk.1)]

/-- The parts found by `part_com_lines`. -/
def Spec.frameParts (split : Bool) : List String := if split then ["B", "G", "S"] else ["B", "H"]

theorem lines_cases {split : Bool} {L : Type} {lines : Dict L} (h : lines.keys = frameParts split) :
    (split = false ∧ ∃ b c, lines = [("B", b), ("H", c)]) ∨
    (split = true ∧ ∃ b c e, lines = [("B", b), ("G", c), ("S", e)]) := by
  cases split with
  | false =>
    left
    simp only [frameParts, Dict.keys] at h
    match lines, h with
    | [(k1, b), (k2, c)], h =>
      simp at h
      exact ⟨rfl, b, c, by rw [h.1, h.2]⟩
  | true =>
    right
    simp only [frameParts, Dict.keys] at h
    match lines, h with
    | [(k1, b), (k2, c), (k3, e)], h =>
      simp at h
      exact ⟨rfl, b, c, e, by rw [h.1, h.2.1, h.2.2]⟩

theorem setCentres_ok {split : Bool} (lines : Dict (List (ℝ × ℝ × ℝ))) (par out : Dict ℝ)
    (hk : lines.keys = frameParts split) (h : setCentres lines par = .ok out) :
    (∀ p l, (p, l) ∈ lines → ∃ x z, centerOfMass (l.map fun t => (t.1, t.2.1)) = .ok (x, z) ∧
      out.find? ("x" ++ p) = some x ∧ out.find? ("z" ++ p) = some z) ∧
    ∀ k, k ∉ ["xB", "zB", "xG", "zG", "xS", "zS", "xH", "zH"] → out.find? k = par.find? k := by
  classical
  set val : String × List (ℝ × ℝ × ℝ) → String → Option ℝ := fun e k =>
    match centerOfMass (e.2.map fun t => (t.1, t.2.1)) with
    | .error _ => none
    | .ok (x, z) => if k = "x" ++ e.1 then some x else some z with hval
  have hstep : ∀ acc e out, centreStep acc e = .ok out →
      (∃ x z, centerOfMass (e.2.map fun t => (t.1, t.2.1)) = .ok (x, z)) ∧
      (∀ k ∈ ["x" ++ e.1, "z" ++ e.1], out.find? k = val e k) ∧
      ∀ k, k ∉ ["x" ++ e.1, "z" ++ e.1] → out.find? k = acc.find? k := by
    intro acc e out h
    obtain ⟨⟨x, z, h1, h2, h3⟩, h4⟩ := centreStep_ok acc e out h
    refine ⟨⟨x, z, h1⟩, ?_, h4⟩
    intro k hk
    have hne : "z" ++ e.1 ≠ "x" ++ e.1 := by
      intro hh
      have := congrArg String.toList hh
      simp [String.toList_append] at this
    simp only [List.mem_cons, List.not_mem_nil, or_false] at hk
    rcases hk with rfl | rfl
    · simp [hval, h1, h2]
    · simp [hval, h1, h3, hne]
  have hpw : lines.Pairwise fun e e' => ∀ k ∈ ["x" ++ e.1, "z" ++ e.1], k ∉ ["x" ++ e'.1, "z" ++ e'.1] := by
    rcases lines_cases hk with ⟨_, b, c, rfl⟩ | ⟨_, b, c, e, rfl⟩ <;>
      simp
  obtain ⟨r1, r2⟩ := foldlM_frame centreStep (fun e => ["x" ++ e.1, "z" ++ e.1]) val _ hstep lines par out hpw h
  refine ⟨?_, ?_⟩
  · intro p l hm
    obtain ⟨⟨x, z, hc⟩, hv⟩ := r1 (p, l) hm
    have hne : "z" ++ p ≠ "x" ++ p := by
      intro hh
      have := congrArg String.toList hh
      simp [String.toList_append] at this
    refine ⟨x, z, hc, ?_, ?_⟩
    · rw [hv _ (by simp)]; simp [hval, hc]
    · rw [hv _ (by simp)]; simp [hval, hc, hne]
  · intro k hk'
    apply r2
    rcases lines_cases hk with ⟨_, b, c, rfl⟩ | ⟨_, b, c, e, rfl⟩ <;> simp at hk' ⊢ <;> tauto

/-- The three in-plane components computed for a part. -/
noncomputable def inPlaneOf (matInv : ∀ n, Matrix (Fin n) (Fin 3) ℝ → Matrix (Fin 3) (Fin n) ℝ)
    (mp : Dict ℝ) (k : ℝ) (pl : String × List (ℝ × ℝ × ℝ)) : Vec3 :=
  inertiaComponents (matInv pl.2.length)
    (fun i => torInertia k (Dict.getD mp (ttKey pl.1 i) 0)) (fun i => (pl.2[i]).2.2)

theorem setInPlane_ok {split : Bool} (matInv : ∀ n, Matrix (Fin n) (Fin 3) ℝ → Matrix (Fin 3) (Fin n) ℝ)
    (mp : Dict ℝ) (kw : ℝ) (lines : Dict (List (ℝ × ℝ × ℝ))) (par out : Dict ℝ)
    (hk : lines.keys = frameParts split) (h : setInPlane matInv mp kw lines par = .ok out) :
    (∀ p l, (p, l) ∈ lines → (∀ i < l.length, mp.has (ttKey p i) = true) ∧
      out.find? ("I" ++ p ++ "xx") = some (inPlaneOf matInv mp kw (p, l) 0) ∧
      out.find? ("I" ++ p ++ "xz") = some (inPlaneOf matInv mp kw (p, l) 1) ∧
      out.find? ("I" ++ p ++ "zz") = some (inPlaneOf matInv mp kw (p, l) 2)) ∧
    ∀ k, k ∉ ["IBxx", "IBxz", "IBzz", "IGxx", "IGxz", "IGzz", "ISxx", "ISxz", "ISzz", "IHxx", "IHxz",
      "IHzz"] → out.find? k = par.find? k := by
  set K : String × List (ℝ × ℝ × ℝ) → List String := fun e =>
    ["I" ++ e.1 ++ "xx", "I" ++ e.1 ++ "xz", "I" ++ e.1 ++ "zz"] with hK
  have hd : ∀ p : String, "I" ++ p ++ "xx" ≠ "I" ++ p ++ "xz" ∧ "I" ++ p ++ "xx" ≠ "I" ++ p ++ "zz" ∧
      "I" ++ p ++ "xz" ≠ "I" ++ p ++ "zz" := by
    intro p
    refine ⟨?_, ?_, ?_⟩ <;> rw [Ne, str_append_inj] <;> decide
  set val : String × List (ℝ × ℝ × ℝ) → String → Option ℝ := fun e k =>
    if k = "I" ++ e.1 ++ "xx" then some (inPlaneOf matInv mp kw e 0)
    else if k = "I" ++ e.1 ++ "xz" then some (inPlaneOf matInv mp kw e 1)
    else some (inPlaneOf matInv mp kw e 2) with hval
  have hstep : ∀ acc e out, inPlaneStep matInv mp kw acc e = .ok out →
      (∀ i < e.2.length, mp.has (ttKey e.1 i) = true) ∧ (∀ k ∈ K e, out.find? k = val e k) ∧
      ∀ k, k ∉ K e → out.find? k = acc.find? k := by
    intro acc e out h
    unfold inPlaneStep at h
    simp only [] at h
    split at h
    · cases h
    · rename_i hr
      simp only [Except.ok.injEq] at h
      obtain ⟨d1, d2, d3⟩ := hd e.1
      refine ⟨?_, ?_, ?_⟩
      · intro i hi
        exact (Dict.require_ok_iff _ _).1 hr _ (List.mem_map.2 ⟨i, List.mem_range.2 hi, rfl⟩)
      · intro k hk
        simp only [hK, List.mem_cons, List.not_mem_nil, or_false] at hk
        subst h
        rcases hk with rfl | rfl | rfl
        · simp only [hval, if_true]
          rw [Dict.find?_set, if_neg d2.symm, Dict.find?_set, if_neg d1.symm, Dict.find?_set, if_pos rfl]
          rfl
        · simp only [hval, if_true, if_neg d1.symm]
          rw [Dict.find?_set, if_neg d3.symm, Dict.find?_set, if_pos rfl]
          rfl
        · simp only [hval, if_neg d2.symm, if_neg d3.symm]
          rw [Dict.find?_set, if_pos rfl]
          rfl
      · intro k hk
        simp only [hK, List.mem_cons, List.not_mem_nil, or_false, not_or] at hk
        subst h
        rw [Dict.find?_set, if_neg (Ne.symm hk.2.2), Dict.find?_set, if_neg (Ne.symm hk.2.1),
          Dict.find?_set, if_neg (Ne.symm hk.1)]
  have hpw : lines.Pairwise fun e e' => ∀ k ∈ K e, k ∉ K e' := by
    rcases lines_cases hk with ⟨_, b, c, rfl⟩ | ⟨_, b, c, e, rfl⟩ <;> simp [hK]
  obtain ⟨r1, r2⟩ := foldlM_frame _ K val _ hstep lines par out hpw h
  refine ⟨?_, ?_⟩
  · intro p l hm
    obtain ⟨q, hv⟩ := r1 (p, l) hm
    obtain ⟨d1, d2, d3⟩ := hd p
    refine ⟨q, ?_, ?_, ?_⟩
    · rw [hv _ (by simp [hK])]; simp [hval]
    · rw [hv _ (by simp [hK])]; simp [hval, d1.symm]
    · rw [hv _ (by simp [hK])]; simp [hval, d2.symm, d3.symm]
  · intro k hk'
    apply r2
    rcases lines_cases hk with ⟨_, b, c, rfl⟩ | ⟨_, b, c, e, rfl⟩ <;> simp [hK] at hk' ⊢ <;> tauto


theorem mem_dis {L M : List String} {s : String} (h : ∀ s ∈ L, s ∉ M) (hs : s ∈ L) : s ∉ M := h s hs

theorem mem_sub {L M : List String} {s : String} (h : ∀ s ∈ L, s ∈ M) (hs : s ∈ L) : s ∈ M := h s hs

theorem setMasses_ok {split : Bool} (mp par out : Dict ℝ) (h : setMasses mp split par = .ok out) :
    (∀ k ∈ ["mB", "mF", "mR"] ++ (if split then ["mS", "mG"] else ["mH"]),
      mp.has k = true ∧ out.find? k = some (mp.getD k 0)) ∧
    (mp.has "mD" = true → out.find? "mD" = some (mp.getD "mD" 0 - mp.getD "mF" 0)) ∧
    ∀ k, k ∉ ["mB", "mF", "mR", "mD", "mS", "mG", "mH"] → out.find? k = par.find? k := by
  unfold setMasses at h
  simp only [] at h
  split at h
  · cases h
  · rename_i hr
    have hr := (Dict.require_ok_iff _ _).1 hr
    simp only [Except.ok.injEq] at h
    refine ⟨fun k hk => ⟨hr k hk, ?_⟩, fun hD => ?_, fun k hk => ?_⟩
    · cases split <;> simp at hk <;> rcases hk with rfl | rfl | rfl | rfl | rfl <;>
        subst h <;> cases hD : mp.has "mD" <;> simp [Dict.find?_set, hD]
    · subst h
      cases split <;> simp [Dict.find?_set, hD]
    · simp only [List.mem_cons, List.not_mem_nil, or_false, not_or, eq_comm (a := k)] at hk
      subst h
      cases split <;> cases hD : mp.has "mD" <;> simp [Dict.find?_set, hD, hk]

theorem setSplitCentre_frame (par : Dict ℝ) (k : String) (hk : k ∉ ["mH", "xH", "zH"]) :
    (setSplitCentre par).find? k = par.find? k := by
  simp only [List.mem_cons, List.not_mem_nil, or_false, not_or, eq_comm (a := k)] at hk
  simp [setSplitCentre, Dict.find?_set, hk]

theorem setYInertias_ok {split : Bool} (mp : Dict ℝ) (u1 u2 : ℝ) (par out : Dict ℝ)
    (h : setYInertias mp split u1 u2 par = .ok out) :
    (∀ k ∈ ["g", "mF", "lF", "TcF1", "mR", "lR", "TcR1", "mB", "TcB1"] ++
      (if split then ["mS", "TcS1", "mG", "TcG1"] else ["mH", "TcH1"]), mp.has k = true) ∧
    out.find? "g" = some (mp.getD "g" 0) ∧
    out.find? "IFyy" = some (compoundPendulumInertia (mp.getD "mF" 0) (mp.getD "g" 0)
      (mp.getD "lF" 0) (mp.getD "TcF1" 0)) ∧
    out.find? "IRyy" = some (compoundPendulumInertia (mp.getD "mR" 0) (mp.getD "g" 0)
      (mp.getD "lR" 0) (mp.getD "TcR1" 0)) ∧
    (mp.has "mD" = true → mp.has "TcD1" = true → out.find? "IDyy" = some
      (compoundPendulumInertia (mp.getD "mD" 0) (mp.getD "g" 0) (mp.getD "lF" 0) (mp.getD "TcD1" 0) -
       compoundPendulumInertia (mp.getD "mF" 0) (mp.getD "g" 0) (mp.getD "lF" 0) (mp.getD "TcF1" 0))) ∧
    out.find? "IByy" = some (compoundPendulumInertia (mp.getD "mB" 0) (mp.getD "g" 0)
      (√(par.getD "xB" 0 ^ 2 + (par.getD "zB" 0 + par.getD "rR" 0) ^ 2)) (mp.getD "TcB1" 0)) ∧
    (split = false → out.find? "IHyy" = some (compoundPendulumInertia (mp.getD "mH" 0) (mp.getD "g" 0)
      (√((par.getD "xH" 0 - par.getD "w" 0) ^ 2 + (par.getD "zH" 0 + par.getD "rF" 0) ^ 2))
      (mp.getD "TcH1" 0))) ∧
    (split = true → out.find? "ISyy" = some (compoundPendulumInertia (mp.getD "mS" 0) (mp.getD "g" 0)
      (√((par.getD "xS" 0 - par.getD "w" 0) ^ 2 + (par.getD "zS" 0 + par.getD "rF" 0) ^ 2))
      (mp.getD "TcS1" 0)) ∧
      out.find? "IGyy" = some (compoundPendulumInertia (mp.getD "mG" 0) (mp.getD "g" 0)
      (√((par.getD "xG" 0 - par.getD "w" 0 + u1) ^ 2 + (par.getD "zG" 0 + par.getD "rF" 0 + u2) ^ 2))
      (mp.getD "TcG1" 0))) ∧
    ∀ k, k ∉ ["g", "IFyy", "IRyy", "IDyy", "IByy", "IHyy", "ISyy", "IGyy"] →
      out.find? k = par.find? k := by
  unfold setYInertias at h
  simp only [] at h
  split at h
  · cases h
  · rename_i hr
    have hr := (Dict.require_ok_iff _ _).1 hr
    refine ⟨hr, ?_, ?_, ?_, fun hm hT => ?_, ?_, fun hs => ?_, fun hs => ?_, fun k hk => ?_⟩
    · split_ifs at h <;> simp only [Except.ok.injEq] at h <;> subst h <;> simp [Dict.find?_set]
    · split_ifs at h <;> simp only [Except.ok.injEq] at h <;> subst h <;> simp [Dict.find?_set]
    · split_ifs at h <;> simp only [Except.ok.injEq] at h <;> subst h <;> simp [Dict.find?_set]
    · split_ifs at h <;> simp_all <;> subst h <;> simp [Dict.find?_set]
    · split_ifs at h <;> simp only [Except.ok.injEq] at h <;> subst h <;> simp [Dict.find?_set]
    · subst hs
      split_ifs at h <;> simp only [Except.ok.injEq] at h <;> subst h <;> simp_all [Dict.find?_set]
    · subst hs
      split_ifs at h <;> simp only [Except.ok.injEq] at h <;> subst h <;> simp_all [Dict.find?_set]
    · simp only [List.mem_cons, List.not_mem_nil, or_false, not_or, eq_comm (a := k)] at hk
      split_ifs at h <;> simp only [Except.ok.injEq] at h <;> subst h <;> simp [Dict.find?_set, hk]

theorem torsionStiffness_ok (mp : Dict ℝ) (k : ℝ) (h : torsionStiffness mp = .ok k) :
    (∀ s ∈ ["lP", "mP", "dP", "TtP1"], mp.has s = true) ∧
    k = torsionalPendulumStiffness
      (tubeInertia (mp.getD "lP" 0) (mp.getD "mP" 0) (mp.getD "dP" 0 / 2) 0).2.1 (mp.getD "TtP1" 0) := by
  unfold torsionStiffness at h
  simp only [] at h
  split at h
  · cases h
  · rename_i hr
    simp only [Except.ok.injEq] at h
    exact ⟨(Dict.require_ok_iff _ _).1 hr, h.symm⟩

theorem setWheelInertias_ok (mp : Dict ℝ) (kt : ℝ) (par out : Dict ℝ)
    (h : setWheelInertias mp kt par = .ok out) :
    mp.has "TtF1" = true ∧ mp.has "TtR1" = true ∧
    out.find? "IFxx" = some (torInertia kt (mp.getD "TtF1" 0)) ∧
    out.find? "IRxx" = some (torInertia kt (mp.getD "TtR1" 0)) ∧
    (mp.has "TtD1" = true → out.find? "IDxx" =
      some (torInertia kt (mp.getD "TtD1" 0) - torInertia kt (mp.getD "TtF1" 0))) ∧
    ∀ k, k ∉ ["IFxx", "IRxx", "IDxx"] → out.find? k = par.find? k := by
  unfold setWheelInertias at h
  simp only [] at h
  split at h
  · cases h
  · rename_i hr
    have hr := (Dict.require_ok_iff _ _).1 hr
    simp only [Except.ok.injEq] at h
    refine ⟨hr _ (by simp), hr _ (by simp), ?_, ?_, fun hD => ?_, fun k hk => ?_⟩
    · subst h; split_ifs <;> simp [Dict.find?_set]
    · subst h; split_ifs <;> simp [Dict.find?_set]
    · subst h; simp [Dict.find?_set, hD]
    · simp only [List.mem_cons, List.not_mem_nil, or_false, not_or, eq_comm (a := k)] at hk
      subst h; split_ifs <;> simp [Dict.find?_set, hk]

/-- A part of the symmetric bicycle as read from a dictionary of benchmark parameters. -/
noncomputable def Spec.partOf (par : Dict ℝ) (p : String) : Part :=
  let v := fun k => Dict.getD par k 0
  ⟨v ("m" ++ p), v ("x" ++ p), 0, v ("z" ++ p), v ("I" ++ p ++ "xx"), v ("I" ++ p ++ "xz"),
    v ("I" ++ p ++ "yy"), v ("I" ++ p ++ "zz")⟩

theorem partInertiaTensor_vals (par : Dict ℝ) (p : String)
    (hp : p ∉ ["F", "R", "D", "FR", "RD", "FRD", ""]) (I : Mat3) (h : partInertiaTensor par p = .ok I) :
    I = (partOf par p).tensor := by
  unfold partInertiaTensor at h
  simp only [if_neg hp] at h
  split at h
  · cases h
  · simp only [Except.ok.injEq] at h
    rw [← h]
    rfl

theorem setSplitInertia_ok (par out : Dict ℝ) (h : setSplitInertia par = .ok out) :
    partOf out "H" = combineParts (partOf par "S") (partOf par "G") ∧
    (∀ k ∈ ["mH", "xH", "zH", "IHxx", "IHxz", "IHyy", "IHzz"], out.has k = true) ∧
    ∀ k, k ∉ ["mH", "xH", "zH", "IHxx", "IHxz", "IHyy", "IHzz"] → out.find? k = par.find? k := by
  unfold setSplitInertia at h
  simp only [] at h
  split at h
  · rename_i IG IS hG hS
    have hG := partInertiaTensor_vals par "G" (by simp) IG hG
    have hS := partInertiaTensor_vals par "S" (by simp) IS hS
    simp only [Except.ok.injEq] at h
    subst h
    refine ⟨?_, ?_, fun k hk => ?_⟩
    · subst hG hS
      simp [partOf, Dict.getD_set, combineParts, totalCom]
    · simp [Dict.has_set]
    · simp only [List.mem_cons, List.not_mem_nil, or_false, not_or, eq_comm (a := k)] at hk
      simp [Dict.find?_set, hk]
  · cases h
  · cases h


theorem calculateBenchmark_stages {newton : (ℝ → ℝ) → ℝ → Except PyErr ℝ}
    {matInv : ∀ n, Matrix (Fin n) (Fin 3) ℝ → Matrix (Fin 3) (Fin n) ℝ} {mp out : Dict ℝ}
    {lines : Dict (List (ℝ × ℝ × ℝ))} (h : calculateBenchmark newton matInv mp = .ok (out, lines)) :
    ∃ geo p1 l1 l2 p2 u1 u2 p3 k p4 p5,
      calculateBenchmarkGeometry newton mp [] = .ok geo ∧
      setMasses mp (isForkSplit mp) geo = .ok p1 ∧
      splitLengths mp (isForkSplit mp) = .ok (l1, l2) ∧
      partComLines mp p1 (isForkSplit mp) l1 l2 = .ok lines ∧
      setCentres lines p1 = .ok p2 ∧
      splitRef (if isForkSplit mp then setSplitCentre p2 else p2) (isForkSplit mp) l1 l2 = .ok (u1, u2) ∧
      setYInertias mp (isForkSplit mp) u1 u2 (if isForkSplit mp then setSplitCentre p2 else p2) = .ok p3 ∧
      torsionStiffness mp = .ok k ∧
      setWheelInertias mp k p3 = .ok p4 ∧
      setInPlane matInv mp k lines p4 = .ok p5 ∧
      (if isForkSplit mp then setSplitInertia p5 else .ok p5) = .ok out := by
  have hb : ∀ {A B : Type} (x : Except PyErr A) (f : A → Except PyErr B) (y : B),
      (x >>= f) = .ok y → ∃ a, x = .ok a ∧ f a = .ok y := by
    intro A B x f y hxy
    cases x with
    | error e => cases hxy
    | ok a => exact ⟨a, rfl, hxy⟩
  unfold calculateBenchmark at h
  simp only [] at h
  obtain ⟨geo, h1, h⟩ := hb _ _ _ h
  obtain ⟨p1, h2, h⟩ := hb _ _ _ h
  obtain ⟨⟨l1, l2⟩, h3, h⟩ := hb _ _ _ h
  obtain ⟨ls, h4, h⟩ := hb _ _ _ h
  obtain ⟨p2, h5, h⟩ := hb _ _ _ h
  obtain ⟨⟨u1, u2⟩, h6, h⟩ := hb _ _ _ h
  obtain ⟨p3, h7, h⟩ := hb _ _ _ h
  obtain ⟨k, h8, h⟩ := hb _ _ _ h
  obtain ⟨p4, h9, h⟩ := hb _ _ _ h
  obtain ⟨p5, h10, h⟩ := hb _ _ _ h
  have h11 : (if isForkSplit mp then setSplitInertia p5 else .ok p5) = .ok out ∧ ls = lines := by
    split_ifs at h ⊢ with hs
    all_goals
      obtain ⟨p6, h11, h⟩ := hb _ _ _ h
      simp only [Except.ok.injEq, Prod.mk.injEq] at h
      rw [← h.1]
      exact ⟨h11, h.2⟩
  obtain ⟨h11, rfl⟩ := h11
  exact ⟨geo, p1, l1, l2, p2, u1, u2, p3, k, p4, p5, h1, h2, h3, h4, h5, h6, h7, h8, h9, h10, h11⟩

/-- What a successful `calculate_benchmark_from_measured` has stored, in terms of the result
itself and of the measured values. -/
theorem calculateBenchmark_facts {newton : (ℝ → ℝ) → ℝ → Except PyErr ℝ}
    {matInv : ∀ n, Matrix (Fin n) (Fin 3) ℝ → Matrix (Fin 3) (Fin n) ℝ} {mp out : Dict ℝ}
    {lines : Dict (List (ℝ × ℝ × ℝ))} (h : calculateBenchmark newton matInv mp = .ok (out, lines)) :
    ∃ geo p1 l1 l2 u1 u2 k,
      calculateBenchmarkGeometry newton mp [] = .ok geo ∧
      splitLengths mp (isForkSplit mp) = .ok (l1, l2) ∧
      (isForkSplit mp = true → fwheelToHandlebarRef (geo.getD "lam" 0) l1 l2 = .ok (u1, u2)) ∧
      partComLines mp p1 (isForkSplit mp) l1 l2 = .ok lines ∧
      (∀ s ∈ ["rF", "rR", "lam", "w", "c"], out.find? s = geo.find? s ∧ p1.find? s = geo.find? s) ∧
      (∀ s ∈ ["mB", "mF", "mR"] ++ (if isForkSplit mp then ["mS", "mG"] else ["mH"]),
        mp.has s = true ∧ out.find? s = some (mp.getD s 0)) ∧
      (∀ p l, (p, l) ∈ lines → ∃ x z, centerOfMass (l.map fun t => (t.1, t.2.1)) = .ok (x, z) ∧
        out.find? ("x" ++ p) = some x ∧ out.find? ("z" ++ p) = some z) ∧
      out.find? "g" = some (mp.getD "g" 0) ∧
      out.find? "IFyy" = some (compoundPendulumInertia (mp.getD "mF" 0) (mp.getD "g" 0)
        (mp.getD "lF" 0) (mp.getD "TcF1" 0)) ∧
      out.find? "IRyy" = some (compoundPendulumInertia (mp.getD "mR" 0) (mp.getD "g" 0)
        (mp.getD "lR" 0) (mp.getD "TcR1" 0)) ∧
      out.find? "IByy" = some (compoundPendulumInertia (mp.getD "mB" 0) (mp.getD "g" 0)
        (√(out.getD "xB" 0 ^ 2 + (out.getD "zB" 0 + out.getD "rR" 0) ^ 2)) (mp.getD "TcB1" 0)) ∧
      (isForkSplit mp = false → out.find? "IHyy" =
        some (compoundPendulumInertia (mp.getD "mH" 0) (mp.getD "g" 0)
        (√((out.getD "xH" 0 - out.getD "w" 0) ^ 2 + (out.getD "zH" 0 + out.getD "rF" 0) ^ 2))
        (mp.getD "TcH1" 0))) ∧
      (isForkSplit mp = true → out.find? "ISyy" =
        some (compoundPendulumInertia (mp.getD "mS" 0) (mp.getD "g" 0)
        (√((out.getD "xS" 0 - out.getD "w" 0) ^ 2 + (out.getD "zS" 0 + out.getD "rF" 0) ^ 2))
        (mp.getD "TcS1" 0)) ∧
        out.find? "IGyy" = some (compoundPendulumInertia (mp.getD "mG" 0) (mp.getD "g" 0)
        (√((out.getD "xG" 0 - out.getD "w" 0 + u1) ^ 2 + (out.getD "zG" 0 + out.getD "rF" 0 + u2) ^ 2))
        (mp.getD "TcG1" 0))) ∧
      k = torsionalPendulumStiffness
        (tubeInertia (mp.getD "lP" 0) (mp.getD "mP" 0) (mp.getD "dP" 0 / 2) 0).2.1 (mp.getD "TtP1" 0) ∧
      out.find? "IFxx" = some (torInertia k (mp.getD "TtF1" 0)) ∧
      out.find? "IRxx" = some (torInertia k (mp.getD "TtR1" 0)) ∧
      (∀ p l, (p, l) ∈ lines → (∀ i < l.length, mp.has (ttKey p i) = true) ∧
        out.find? ("I" ++ p ++ "xx") = some (inPlaneOf matInv mp k (p, l) 0) ∧
        out.find? ("I" ++ p ++ "xz") = some (inPlaneOf matInv mp k (p, l) 1) ∧
        out.find? ("I" ++ p ++ "zz") = some (inPlaneOf matInv mp k (p, l) 2)) ∧
      (mp.has "mD" = true → out.find? "mD" = some (mp.getD "mD" 0 - mp.getD "mF" 0)) ∧
      (mp.has "mD" = true → mp.has "TcD1" = true → out.find? "IDyy" = some
        (compoundPendulumInertia (mp.getD "mD" 0) (mp.getD "g" 0) (mp.getD "lF" 0) (mp.getD "TcD1" 0) -
         compoundPendulumInertia (mp.getD "mF" 0) (mp.getD "g" 0) (mp.getD "lF" 0) (mp.getD "TcF1" 0))) ∧
      (mp.has "TtD1" = true → out.find? "IDxx" =
        some (torInertia k (mp.getD "TtD1" 0) - torInertia k (mp.getD "TtF1" 0))) ∧
      (isForkSplit mp = true →
        partOf out "H" = combineParts (partOf out "S") (partOf out "G") ∧
        ∀ s ∈ ["mH", "xH", "zH", "IHxx", "IHxz", "IHyy", "IHzz"], out.has s = true) := by
  obtain ⟨geo, p1, l1, l2, p2, u1, u2, p3, k, p4, p5, h1, h2, h3, h4, h5, h6, h7, h8, h9, h10, h11⟩ :=
    calculateBenchmark_stages h
  obtain ⟨hkeys, -, -⟩ := C77_part_com_lines mp p1 (isForkSplit mp) l1 l2 lines h4
  have hkeys : lines.keys = frameParts (isForkSplit mp) := hkeys
  obtain ⟨a1, a2, a3⟩ := setMasses_ok mp geo p1 h2
  obtain ⟨b1, b2⟩ := setCentres_ok lines p1 p2 hkeys h5
  obtain ⟨c0, c1, c2, c3, c4, c5, c6, c7, c8⟩ := setYInertias_ok mp u1 u2 _ p3 h7
  obtain ⟨d1, d2⟩ := torsionStiffness_ok mp k h8
  obtain ⟨e1, e2, e3, e4, e5, e6⟩ := setWheelInertias_ok mp k p3 p4 h9
  obtain ⟨f1, f2⟩ := setInPlane_ok matInv mp k lines p4 p5 hkeys h10
  cases hsp : isForkSplit mp with
  | false =>
    simp only [hsp, Bool.false_eq_true, if_false, Except.ok.injEq] at *
    subst h11
    have gA : ∀ s ∈ ["xB", "zB", "xH", "zH", "rR", "rF", "w", "lam", "c", "mB", "mF", "mR", "mH", "mD"],
        p5.find? s = p2.find? s := by
      intro s hs
      rw [f2 s (mem_dis (by simp) hs), e6 s (mem_dis (by simp) hs), c8 s (mem_dis (by simp) hs)]
    have gD : ∀ s ∈ ["xB", "zB", "xH", "zH", "rR", "rF", "w", "lam", "c", "mB", "mF", "mR", "mH", "mD"],
        p5.getD s 0 = p2.getD s 0 := fun s hs => by unfold Dict.getD; rw [gA s hs]
    have gY : ∀ s ∈ ["g", "IFyy", "IRyy", "IDyy", "IByy", "IHyy"], p5.find? s = p3.find? s := by
      intro s hs
      rw [f2 s (mem_dis (by simp) hs), e6 s (mem_dis (by simp) hs)]
    refine ⟨geo, p1, l1, l2, u1, u2, k, h1, h3, nofun, h4, ?_, ?_, ?_, ?_, ?_, ?_, ?_, ?_, nofun,
      d2, ?_, ?_, f1, ?_, ?_, ?_, nofun⟩
    · intro s hs
      rw [gA s (mem_sub (by simp) hs), b2 s (mem_dis (by simp) hs), a3 s (mem_dis (by simp) hs)]
      exact ⟨rfl, rfl⟩
    · intro s hs
      refine ⟨(a1 s hs).1, ?_⟩
      rw [gA s (mem_sub (by simp) hs), b2 s (mem_dis (by simp) hs)]
      exact (a1 s hs).2
    · intro p l hm
      obtain ⟨x, z, r1, r2, r3⟩ := b1 p l hm
      have hp : p = "B" ∨ p = "H" := by
        have := List.mem_map_of_mem (f := Prod.fst) hm
        have := hkeys ▸ (show p ∈ lines.keys from this)
        simpa [frameParts] using this
      refine ⟨x, z, r1, ?_, ?_⟩
      · rw [gA _ (by rcases hp with rfl | rfl <;> simp), r2]
      · rw [gA _ (by rcases hp with rfl | rfl <;> simp), r3]
    · rw [gY _ (by simp), c1]
    · rw [gY _ (by simp), c2]
    · rw [gY _ (by simp), c3]
    · rw [gY _ (by simp), c5, gD _ (by simp), gD _ (by simp), gD _ (by simp)]
    · intro _
      rw [gY _ (by simp), c6 trivial, gD _ (by simp), gD _ (by simp), gD _ (by simp), gD _ (by simp)]
    · rw [f2 _ (by simp), e3]
    · rw [f2 _ (by simp), e4]
    · intro hD
      rw [gA _ (by simp), b2 _ (by simp), a2 hD]
    · intro hD hT
      rw [gY _ (by simp), c4 hD hT]
    · intro hD
      rw [f2 _ (by simp), e5 hD]
  | true =>
    simp only [hsp, if_true] at *
    obtain ⟨o1, o2, o3⟩ := setSplitInertia_ok p5 out h11
    have gA : ∀ s ∈ ["xB", "zB", "xS", "zS", "xG", "zG", "rR", "rF", "w", "lam", "c", "mB", "mF", "mR",
        "mS", "mG", "mD"], out.find? s = p2.find? s := by
      intro s hs
      rw [o3 s (mem_dis (by simp) hs), f2 s (mem_dis (by simp) hs), e6 s (mem_dis (by simp) hs),
        c8 s (mem_dis (by simp) hs), setSplitCentre_frame p2 s (mem_dis (by simp) hs)]
    have gD : ∀ s ∈ ["xB", "zB", "xS", "zS", "xG", "zG", "rR", "rF", "w", "lam", "c", "mB", "mF", "mR",
        "mS", "mG", "mD"], (setSplitCentre p2).getD s 0 = out.getD s 0 := fun s hs => by
      unfold Dict.getD; rw [gA s hs, setSplitCentre_frame p2 s (mem_dis (by simp) hs)]
    have gY : ∀ s ∈ ["g", "IFyy", "IRyy", "IDyy", "IByy", "ISyy", "IGyy"], out.find? s = p3.find? s := by
      intro s hs
      rw [o3 s (mem_dis (by simp) hs), f2 s (mem_dis (by simp) hs), e6 s (mem_dis (by simp) hs)]
    have gG : ∀ s ∈ ["rF", "rR", "lam", "w", "c"], out.find? s = geo.find? s ∧ p1.find? s = geo.find? s := by
      intro s hs
      rw [gA s (mem_sub (by simp) hs), b2 s (mem_dis (by simp) hs), a3 s (mem_dis (by simp) hs)]
      exact ⟨rfl, rfl⟩
    refine ⟨geo, p1, l1, l2, u1, u2, k, h1, h3, fun _ => ?_, h4, gG, ?_, ?_, ?_, ?_, ?_, ?_, nofun, ?_,
      d2, ?_, ?_, ?_, ?_, ?_, ?_, fun _ => ⟨?_, o2⟩⟩
    · rw [splitRef, if_pos rfl, gD _ (by simp)] at h6
      unfold Dict.getD at h6 ⊢
      rwa [(gG "lam" (by simp)).1] at h6
    · intro s hs
      refine ⟨(a1 s hs).1, ?_⟩
      rw [gA s (mem_sub (by simp) hs), b2 s (mem_dis (by simp) hs)]
      exact (a1 s hs).2
    · intro p l hm
      obtain ⟨x, z, r1, r2, r3⟩ := b1 p l hm
      have hp : p = "B" ∨ p = "G" ∨ p = "S" := by
        have := List.mem_map_of_mem (f := Prod.fst) hm
        have := hkeys ▸ (show p ∈ lines.keys from this)
        simpa [frameParts] using this
      refine ⟨x, z, r1, ?_, ?_⟩
      · rw [gA _ (by rcases hp with rfl | rfl | rfl <;> simp), r2]
      · rw [gA _ (by rcases hp with rfl | rfl | rfl <;> simp), r3]
    · rw [gY _ (by simp), c1]
    · rw [gY _ (by simp), c2]
    · rw [gY _ (by simp), c3]
    · rw [gY _ (by simp), c5, gD _ (by simp), gD _ (by simp), gD _ (by simp)]
    · intro _
      obtain ⟨c71, c72⟩ := c7 trivial
      rw [gY _ (by simp), gY _ (by simp), c71, c72]
      simp only [gD "xS" (by simp), gD "zS" (by simp), gD "xG" (by simp), gD "zG" (by simp),
        gD "w" (by simp), gD "rF" (by simp)]
      exact ⟨trivial, trivial⟩
    · rw [o3 _ (by simp), f2 _ (by simp), e3]
    · rw [o3 _ (by simp), f2 _ (by simp), e4]
    · intro p l hm
      obtain ⟨r1, r2, r3, r4⟩ := f1 p l hm
      have hp : p = "B" ∨ p = "G" ∨ p = "S" := by
        have := List.mem_map_of_mem (f := Prod.fst) hm
        have := hkeys ▸ (show p ∈ lines.keys from this)
        simpa [frameParts] using this
      refine ⟨r1, ?_, ?_, ?_⟩
      · rw [o3 _ (by rcases hp with rfl | rfl | rfl <;> simp), r2]
      · rw [o3 _ (by rcases hp with rfl | rfl | rfl <;> simp), r3]
      · rw [o3 _ (by rcases hp with rfl | rfl | rfl <;> simp), r4]
    · intro hD
      rw [gA _ (by simp), b2 _ (by simp), a2 hD]
    · intro hD hT
      rw [gY _ (by simp), c4 hD hT]
    · intro hD
      rw [o3 _ (by simp), f2 _ (by simp), e5 hD]
    · rw [o1]
      have : ∀ s ∈ ["mS", "xS", "zS", "ISxx", "ISxz", "ISyy", "ISzz", "mG", "xG", "zG", "IGxx", "IGxz",
          "IGyy", "IGzz"], p5.getD s 0 = out.getD s 0 := fun s hs => by
        unfold Dict.getD; rw [o3 s (mem_dis (by simp) hs)]
      congr 1 <;> simp [partOf, this]


/-! ## C41 -/

/-- **C41.** Flywheel: wheel plus flywheel weigh what was measured together, and their inertias
add up to those of the compound pendulum and of the torsional pendulum with both. -/
theorem C41_flywheel_is_difference {newton : (ℝ → ℝ) → ℝ → Except PyErr ℝ}
    {matInv : ∀ n, Matrix (Fin n) (Fin 3) ℝ → Matrix (Fin 3) (Fin n) ℝ} {mp par : Dict ℝ}
    {lines : Dict (List (ℝ × ℝ × ℝ))} (h : calculateBenchmark newton matInv mp = .ok (par, lines))
    (hm : mp.has "mD" = true) :
    (∃ mD mF, par.find? "mD" = some mD ∧ par.find? "mF" = some mF ∧ mD + mF = mp.getD "mD" 0) ∧
    (mp.has "TcD1" = true → ∃ ID IF, par.find? "IDyy" = some ID ∧ par.find? "IFyy" = some IF ∧
      ID + IF = compoundPendulumInertia (mp.getD "mD" 0) (mp.getD "g" 0) (mp.getD "lF" 0)
        (mp.getD "TcD1" 0)) ∧
    (mp.has "TtD1" = true → ∃ ID IF, par.find? "IDxx" = some ID ∧ par.find? "IFxx" = some IF ∧
      ID + IF = torInertia (torsionalPendulumStiffness
        (tubeInertia (mp.getD "lP" 0) (mp.getD "mP" 0) (mp.getD "dP" 0 / 2) 0).2.1 (mp.getD "TtP1" 0))
        (mp.getD "TtD1" 0)) := by
  obtain ⟨geo, p1, l1, l2, u1, u2, k, f1, f2, f3, f4, f5, f6, f7, f8, f9, f10, f11, f12, f13, f14, f15,
    f16, f17, f18, f19, f20, f21⟩ := calculateBenchmark_facts h
  refine ⟨⟨_, _, f18 hm, (f6 "mF" (by simp)).2, by ring⟩, fun hT => ⟨_, _, f19 hm hT, f9, by ring⟩,
    fun hT => ⟨_, _, f20 hT, f15, ?_⟩⟩
  rw [f14]; ring

/-- **C41.** Split fork: mass, first moment and inertia about the origin of the reported
handlebar/fork assembly H are the sums over the fork S and the handlebar G. -/
theorem C41_split_fork_is_sum {newton : (ℝ → ℝ) → ℝ → Except PyErr ℝ}
    {matInv : ∀ n, Matrix (Fin n) (Fin 3) ℝ → Matrix (Fin 3) (Fin n) ℝ} {mp par : Dict ℝ}
    {lines : Dict (List (ℝ × ℝ × ℝ))} (h : calculateBenchmark newton matInv mp = .ok (par, lines))
    (hs : isForkSplit mp = true) (hm : mp.getD "mS" 0 + mp.getD "mG" 0 ≠ 0) :
    (partOf par "H").body.m = (partOf par "S").body.m + (partOf par "G").body.m ∧
    (partOf par "H").body.firstMoment =
      (partOf par "S").body.firstMoment + (partOf par "G").body.firstMoment ∧
    (partOf par "H").body.originInertia =
      (partOf par "S").body.originInertia + (partOf par "G").body.originInertia ∧
    (partOf par "S").body.m = mp.getD "mS" 0 ∧ (partOf par "G").body.m = mp.getD "mG" 0 ∧
    ∀ k ∈ ["mH", "xH", "zH", "IHxx", "IHxz", "IHyy", "IHzz"], par.has k = true := by
  obtain ⟨geo, p1, l1, l2, u1, u2, k, f1, f2, f3, f4, f5, f6, f7, f8, f9, f10, f11, f12, f13, f14, f15,
    f16, f17, f18, f19, f20, f21⟩ := calculateBenchmark_facts h
  obtain ⟨e, hk⟩ := f21 hs
  have hS : par.getD "mS" 0 = mp.getD "mS" 0 :=
    Dict.getD_eq_of_find? _ _ _ _ (f6 "mS" (by simp [hs])).2
  have hG : par.getD "mG" 0 = mp.getD "mG" 0 :=
    Dict.getD_eq_of_find? _ _ _ _ (f6 "mG" (by simp [hs])).2
  rw [e]
  obtain ⟨c1, c2, c3⟩ := C21_combine_conserves (partOf par "S") (partOf par "G") rfl rfl
    (by simpa [partOf, hS, hG] using hm)
  exact ⟨c1, c2, c3, by simpa [partOf, Part.body] using hS, by simpa [partOf, Part.body] using hG, hk⟩

end BP
