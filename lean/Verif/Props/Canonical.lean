import Mathlib.Tactic.NormNum
import Mathlib.Topology.Order.IntermediateValue
import Mathlib.Topology.Algebra.Order.Field
import Verif.Props.Bicycle
import Verif.Lemmas.Canonical

/-!
# Properties of benchmark_par_to_canonical: C03 to C06, and C76
-/

set_option linter.unusedSimpArgs false

namespace BP

open Real Matrix Spec

/-! ## C03: structure -/

/-- All keys `benchmark_par_to_canonical` needs. -/
def canonKeys : List String := canonKeysBefore ++ canonKeysAfter

/-- A successful call returns the matrices of `Bench.ofDict`, and all keys are there. -/
theorem canonical_ok (p p' : Dict ℝ) (k : Canon)
    (h : benchmarkParToCanonical p = (p', .ok k)) :
    (∀ key ∈ canonKeys, Dict.has p key = true) ∧
    p' = Dict.set (Dict.set p "IRzz" (Dict.getD p "IRxx" 0)) "IFzz" (Dict.getD p "IFxx" 0) ∧
    k = (Bench.ofDict p).canon := by
  unfold benchmarkParToCanonical at h
  cases h1 : Dict.require p canonKeysBefore with
  | error e => simp [h1] at h
  | ok u =>
    simp only [h1] at h
    have e0 : Dict.getD (Dict.set p "IRzz" (Dict.getD p "IRxx" 0)) "IFxx" 0 = Dict.getD p "IFxx" 0 := by
      rw [Dict.getD_set]; simp
    rw [e0] at h
    cases h2 : Dict.require (Dict.set (Dict.set p "IRzz" (Dict.getD p "IRxx" 0)) "IFzz"
        (Dict.getD p "IFxx" 0)) canonKeysAfter with
    | error e => simp [h2] at h
    | ok u =>
      simp only [h2, Prod.mk.injEq, Except.ok.injEq] at h
      refine ⟨?_, h.1.symm, ?_⟩
      · intro key hk
        rcases List.mem_append.1 hk with hk | hk
        · exact (Dict.require_ok_iff _ _).1 h1 key hk
        · have := (Dict.require_ok_iff _ _).1 h2 key hk
          rw [Dict.has_set, Dict.has_set] at this
          have n1 : "IFzz" ≠ key := by rintro rfl; revert hk; decide
          have n2 : "IRzz" ≠ key := by rintro rfl; revert hk; decide
          simpa [n1, n2] using this
      · rw [← h.2]
        congr 1
        simp [Bench.ofDict, Dict.getD_set]

theorem canonical_of_keys (p : Dict ℝ) (h : ∀ key ∈ canonKeys, Dict.has p key = true) :
    benchmarkParToCanonical p =
      (Dict.set (Dict.set p "IRzz" (Dict.getD p "IRxx" 0)) "IFzz" (Dict.getD p "IFxx" 0),
        .ok (Bench.ofDict p).canon) := by
  have h1 : Dict.require p canonKeysBefore = .ok () :=
    (Dict.require_ok_iff _ _).2 fun k hk => h k (List.mem_append.2 (Or.inl hk))
  have e0 : Dict.getD (Dict.set p "IRzz" (Dict.getD p "IRxx" 0)) "IFxx" 0 = Dict.getD p "IFxx" 0 := by
    rw [Dict.getD_set]; simp
  have h2 : Dict.require (Dict.set (Dict.set p "IRzz" (Dict.getD p "IRxx" 0)) "IFzz"
        (Dict.getD p "IFxx" 0)) canonKeysAfter = .ok () := by
    refine (Dict.require_ok_iff _ _).2 fun k hk => ?_
    rw [Dict.has_set, Dict.has_set, h k (List.mem_append.2 (Or.inr hk))]; simp
  unfold benchmarkParToCanonical
  simp only [h1, e0, h2]
  simp [Bench.ofDict, Dict.getD_set]

/-- **C03.** Structure of the canonical matrices, for every dictionary. -/
theorem C03_canonical_structure (p p' : Dict ℝ) (k : Canon)
    (h : benchmarkParToCanonical p = (p', .ok k)) :
    k.Mᵀ = k.M ∧ k.K0ᵀ = k.K0 ∧ (∀ i, k.K2 i 0 = 0) ∧ k.C1 0 0 = 0 := by
  obtain ⟨_, _, rfl⟩ := canonical_ok p p' k h
  refine ⟨?_, ?_, ?_, ?_⟩
  · ext i j; fin_cases i <;> fin_cases j <;> simp [Bench.canon, Bench.M]
  · ext i j; fin_cases i <;> fin_cases j <;> simp [Bench.canon, Bench.K0]
  · intro i; fin_cases i <;> simp [Bench.canon, Bench.K2]
  · simp [Bench.canon, Bench.C1]

theorem ofDict_congr (d d' : Dict ℝ)
    (h : ∀ k ∈ canonKeys, Dict.find? d k = Dict.find? d' k) : Bench.ofDict d = Bench.ofDict d' := by
  have hg : ∀ k ∈ canonKeys, Dict.getD d k 0 = Dict.getD d' k 0 := by
    intro k hk; simp [Dict.getD, h k hk]
  unfold Bench.ofDict
  simp only []
  rw [hg "w" (by decide), hg "c" (by decide), hg "lam" (by decide), hg "rR" (by decide),
    hg "mR" (by decide), hg "IRxx" (by decide), hg "IRyy" (by decide), hg "xB" (by decide),
    hg "zB" (by decide), hg "mB" (by decide), hg "IBxx" (by decide), hg "IBxz" (by decide),
    hg "IBzz" (by decide), hg "xH" (by decide), hg "zH" (by decide), hg "mH" (by decide),
    hg "IHxx" (by decide), hg "IHxz" (by decide), hg "IHzz" (by decide), hg "rF" (by decide),
    hg "mF" (by decide), hg "IFxx" (by decide), hg "IFyy" (by decide)]

/-- **C03.** The result depends on the 23 parameters listed in `canonKeys` only:
dictionaries agreeing there give the same result, whatever else they hold (g, v,
IByy, IHyy, IRzz, IFzz, ...). -/
theorem C03_canonical_depends_only_on_its_keys (d d' : Dict ℝ)
    (h : ∀ k ∈ canonKeys, Dict.find? d k = Dict.find? d' k) :
    (benchmarkParToCanonical d).2 = (benchmarkParToCanonical d').2 := by
  have req : ∀ (a b : Dict ℝ) (ks : List String), (∀ k ∈ ks, Dict.find? a k = Dict.find? b k) →
      Dict.require a ks = Dict.require b ks := by
    intro a b ks
    induction ks with
    | nil => intro _; rfl
    | cons k ks ih =>
      intro hh
      simp only [Dict.require, hh k (by simp)]
      rw [ih fun k' hk' => hh k' (by simp [hk'])]
  have h1 := req d d' canonKeysBefore fun k hk => h k (List.mem_append.2 (Or.inl hk))
  unfold benchmarkParToCanonical
  rw [h1]
  cases Dict.require d' canonKeysBefore with
  | error e => rfl
  | ok u =>
    simp only []
    set a := Dict.set (Dict.set d "IRzz" _) "IFzz" _ with ha
    set b := Dict.set (Dict.set d' "IRzz" _) "IFzz" _ with hb
    have hab : ∀ k ∈ canonKeys, Dict.find? a k = Dict.find? b k := by
      intro k hk
      have n1 : "IFzz" ≠ k := by rintro rfl; revert hk; decide
      have n2 : "IRzz" ≠ k := by rintro rfl; revert hk; decide
      rw [ha, hb, Dict.find?_set_of_ne _ _ n1, Dict.find?_set_of_ne _ _ n2,
        Dict.find?_set_of_ne _ _ n1, Dict.find?_set_of_ne _ _ n2, h k hk]
    rw [req a b canonKeysAfter fun k hk => hab k (List.mem_append.2 (Or.inr hk))]
    cases Dict.require b canonKeysAfter with
    | error e => rfl
    | ok u => simp [ofDict_congr a b hab]

/-- The keys named in the English property are not among the keys read. -/
theorem C03_ignored_keys : "g" ∉ canonKeys ∧ "v" ∉ canonKeys ∧ "IByy" ∉ canonKeys ∧
    "IHyy" ∉ canonKeys ∧ "IRzz" ∉ canonKeys ∧ "IFzz" ∉ canonKeys := by decide

/-- A complete dictionary (used to show that hypotheses can be met). -/
noncomputable def exampleDict : Dict ℝ :=
  [("w", 1), ("c", 1 / 10), ("lam", 0), ("rR", 1 / 3), ("mR", 2), ("IRxx", 1 / 10), ("IRyy", 1 / 8),
   ("xB", 1 / 3), ("zB", -1), ("mB", 85), ("IBxx", 9), ("IBxz", 2), ("IBzz", 3), ("IByy", 11),
   ("xH", 9 / 10), ("zH", -7 / 10), ("mH", 4), ("IHxx", 1 / 20), ("IHxz", 0), ("IHzz", 1 / 100),
   ("rF", 1 / 3), ("mF", 3), ("IFxx", 1 / 7), ("IFyy", 1 / 4), ("g", 9)]

/-- non-vacuity of C03: a complete dictionary succeeds -/
example : ∃ p' k, benchmarkParToCanonical exampleDict = (p', .ok k) :=
  ⟨_, _, canonical_of_keys _ (by
    intro key hk
    simp only [canonKeys, canonKeysBefore, canonKeysAfter, List.cons_append, List.nil_append,
      List.mem_cons, List.not_mem_nil, or_false] at hk
    rcases hk with h | h | h | h | h | h | h | h | h | h | h | h | h | h | h | h | h | h | h | h | h | h | h <;>
      subst h <;> simp [exampleDict, Dict.has, Dict.find?])⟩

/-! ## C06: effect on the caller's dictionary -/

/-- **C06.** The call succeeds iff all 23 keys are present. -/
theorem C06_succeeds_iff_keys (p : Dict ℝ) :
    (∃ k, (benchmarkParToCanonical p).2 = .ok k) ↔ ∀ key ∈ canonKeys, Dict.has p key = true := by
  constructor
  · rintro ⟨k, hk⟩
    exact (canonical_ok p _ k (Prod.ext rfl hk)).1
  · intro h
    rw [canonical_of_keys p h]; exact ⟨_, rfl⟩

/-- **C06.** Otherwise it raises `KeyError` for a key that is missing. -/
theorem C06_error_is_missing_key (p : Dict ℝ) (e : PyErr)
    (h : (benchmarkParToCanonical p).2 = .error e) :
    ∃ k ∈ canonKeys, e = .keyError k ∧ Dict.has p k = false := by
  unfold benchmarkParToCanonical at h
  cases h1 : Dict.require p canonKeysBefore with
  | error e' =>
    simp only [h1, Except.error.injEq] at h; subst h
    obtain ⟨k, hk, h2⟩ := Dict.require_error _ _ _ h1
    exact ⟨k, List.mem_append.2 (Or.inl hk), h2⟩
  | ok u =>
    simp only [h1] at h
    split at h
    · rename_i e' h2
      simp only [Except.error.injEq] at h; subst h
      obtain ⟨k, hk, h3, h4⟩ := Dict.require_error _ _ _ h2
      refine ⟨k, List.mem_append.2 (Or.inr hk), h3, ?_⟩
      rw [Dict.has_set, Dict.has_set] at h4
      simp only [Bool.or_eq_false_iff] at h4
      exact h4.2.2
    · simp at h

/-- **C06.** After any call, successful or not, every key except `IRzz` and
`IFzz` is as before. -/
theorem C06_other_keys_untouched (p : Dict ℝ) (k : String) (h1 : k ≠ "IRzz") (h2 : k ≠ "IFzz") :
    Dict.find? (benchmarkParToCanonical p).1 k = Dict.find? p k := by
  unfold benchmarkParToCanonical
  split
  · rfl
  · simp only []
    split <;> simp only [Dict.find?_set_of_ne _ _ (Ne.symm h1), Dict.find?_set_of_ne _ _ (Ne.symm h2)]

/-- **C06.** After a successful call `IRzz = IRxx` and `IFzz = IFxx`, and the
dictionary has exactly these keys in addition. -/
theorem C06_sets_wheel_inertias (p p' : Dict ℝ) (k : Canon)
    (h : benchmarkParToCanonical p = (p', .ok k)) :
    Dict.find? p' "IRzz" = Dict.find? p "IRxx" ∧ Dict.find? p' "IFzz" = Dict.find? p "IFxx" ∧
    ∀ key, key ∈ Dict.keys p' ↔ key ∈ Dict.keys p ∨ key = "IRzz" ∨ key = "IFzz" := by
  obtain ⟨hk, rfl, _⟩ := canonical_ok p p' k h
  have hR := (Dict.has_iff_exists p _).1 (hk "IRxx" (by decide))
  have hF := (Dict.has_iff_exists p _).1 (hk "IFxx" (by decide))
  obtain ⟨a, ha⟩ := hR
  obtain ⟨b, hb⟩ := hF
  refine ⟨?_, ?_, ?_⟩
  · rw [Dict.find?_set_of_ne _ _ (by decide), Dict.find?_set_self, ha]; simp [Dict.getD, ha]
  · rw [Dict.find?_set_self, hb]; simp [Dict.getD, hb]
  · intro key
    rw [← Dict.has_iff_mem_keys, ← Dict.has_iff_mem_keys, Dict.has_set, Dict.has_set]
    simp only [Bool.or_eq_true, decide_eq_true_eq]
    constructor
    · rintro (h | h | h)
      · exact Or.inr (Or.inr h.symm)
      · exact Or.inr (Or.inl h.symm)
      · exact Or.inl h
    · rintro (h | h | h)
      · exact Or.inr (Or.inr h)
      · exact Or.inr (Or.inl h.symm)
      · exact Or.inl h.symm

/-- **C06.** Calling it again gives the same matrices and changes nothing more. -/
theorem C06_second_call_same (p p' : Dict ℝ) (k : Canon)
    (h : benchmarkParToCanonical p = (p', .ok k)) :
    benchmarkParToCanonical p' = (p', .ok k) := by
  obtain ⟨hk, hp, hc⟩ := canonical_ok p p' k h
  have hw := C06_sets_wheel_inertias p p' k h
  have ho : ∀ key, key ≠ "IRzz" → key ≠ "IFzz" → Dict.find? p' key = Dict.find? p key := by
    intro key h1 h2
    have := C06_other_keys_untouched p key h1 h2
    rwa [h] at this
  have hin : ∀ key ∈ canonKeys, Dict.find? p' key = Dict.find? p key := by
    intro key hkey
    refine ho key ?_ ?_ <;> rintro rfl <;> revert hkey <;> decide
  rw [canonical_of_keys p' (by
    intro key hkey
    unfold Dict.has; rw [hin key hkey]; exact hk key hkey)]
  have e1 : Dict.getD p' "IRxx" 0 = Dict.getD p "IRxx" 0 := by
    simp [Dict.getD, hin "IRxx" (by decide)]
  have e2 : Dict.getD p' "IFxx" 0 = Dict.getD p "IFxx" 0 := by
    simp [Dict.getD, hin "IFxx" (by decide)]
  have f1 : Dict.find? p' "IRzz" = some (Dict.getD p "IRxx" 0) := by
    rw [hp, Dict.find?_set_of_ne _ _ (by decide), Dict.find?_set_self]
  have f2 : Dict.find? p' "IFzz" = some (Dict.getD p "IFxx" 0) := by
    rw [hp, Dict.find?_set_self]
  rw [e1, e2, Dict.set_of_find? _ _ _ f1, Dict.set_of_find? _ _ _ f2, hc, ofDict_congr p' p hin]

/-- The English "leaves its argument alone" is false: the caller sees new keys. -/
theorem C06_argument_is_modified : ∃ p : Dict ℝ,
    (∃ k, (benchmarkParToCanonical p).2 = .ok k) ∧ (benchmarkParToCanonical p).1 ≠ p := by
  have hx : ∀ key ∈ canonKeys, Dict.has exampleDict key = true := by
    intro key hk
    simp only [canonKeys, canonKeysBefore, canonKeysAfter, List.cons_append, List.nil_append,
      List.mem_cons, List.not_mem_nil, or_false] at hk
    rcases hk with h | h | h | h | h | h | h | h | h | h | h | h | h | h | h | h | h | h | h | h | h | h | h <;>
      subst h <;> simp [exampleDict, Dict.has, Dict.find?]
  refine ⟨exampleDict, (C06_succeeds_iff_keys _).2 hx, ?_⟩
  intro hcontra
  have := (C06_sets_wheel_inertias exampleDict _ _ (canonical_of_keys _ hx)).1
  rw [canonical_of_keys _ hx] at hcontra
  simp only [] at hcontra
  rw [hcontra] at this
  simp [exampleDict, Dict.find?] at this

/-! ## C04: kinetic energy -/

/-- **C04.** `½ q'ᵀ M q'` is the kinetic energy of rear wheel, frame, fork and
front wheel for roll rate `φ'`, steer rate `δ'` and the yaw rate `ψ'` that keeps the
front contact point `(w,0,0)` from sliding sideways. -/
theorem C04_mass_matrix_is_kinetic_energy (p : Bench) (IByy IHyy : ℝ) (hA : p.mA ≠ 0)
    (hT : p.mT ≠ 0) (hw : p.w ≠ 0) (phid psid deltad : ℝ)
    (hyaw : velFront p.w p.c p.lam phid psid deltad ![p.w, 0, 0] 1 = 0) :
    1 / 2 * (![phid, deltad] ⬝ᵥ (p.canon.M *ᵥ ![phid, deltad])) =
      bicycleEnergy [p.bodyR, p.bodyB IByy] [p.bodyH IHyy, p.bodyF] p.w p.c p.lam phid psid deltad := by
  have hpsi : psid = p.c / p.w * cos p.lam * deltad := by
    simp [velFront, velRear, rotVel, omegaRear, steerDir, crossProduct] at hyaw
    field_simp
    linarith
  subst hpsi
  rw [canon_eq_canonOfMoments p hA hT, momT_eq, momA_eq]
  simp [canonOfMoments, bicycleEnergy, Body.energy, velRear, velFront, rotVel, omegaRear, omegaFront, steerDir,
    crossProduct, Bench.bodyR, Bench.bodyB, Bench.bodyH, Bench.bodyF, planarBody, dotProduct, Matrix.mulVec, Fin.sum_univ_three,
    Bench.mA, Bench.ITxx, Bench.ITxz, Bench.ITzz, Bench.IRzz, Bench.IFzz]
  generalize p.c / p.w = r
  ring

/-- In-plane part `(Ixx, Ixz; Ixz, Izz)` of an inertia tensor is positive semidefinite. -/
def InPlanePSD (Ixx Ixz Izz : ℝ) : Prop := ∀ a b : ℝ, 0 ≤ Ixx * a ^ 2 + 2 * Ixz * a * b + Izz * b ^ 2

/-- ... is positive definite. -/
def InPlanePD (Ixx Ixz Izz : ℝ) : Prop :=
  ∀ a b : ℝ, (a ≠ 0 ∨ b ≠ 0) → 0 < Ixx * a ^ 2 + 2 * Ixz * a * b + Izz * b ^ 2

theorem InPlanePD.psd {Ixx Ixz Izz : ℝ} (h : InPlanePD Ixx Ixz Izz) : InPlanePSD Ixx Ixz Izz := by
  intro a b
  by_cases hab : a ≠ 0 ∨ b ≠ 0
  · exact (h a b hab).le
  · push Not at hab; simp [hab.1, hab.2]

/-- A physically sensible benchmark bicycle: non-negative masses, positive
semidefinite central inertias, and mass somewhere. -/
structure Bench.Physical (p : Bench) : Prop where
  (mR : 0 ≤ p.mR) (mB : 0 ≤ p.mB) (mH : 0 ≤ p.mH) (mF : 0 ≤ p.mF)
  (mA : p.mA ≠ 0) (mT : p.mT ≠ 0) (w : p.w ≠ 0)
  (IR : 0 ≤ p.IRxx) (IF : 0 ≤ p.IFxx)
  (IB : InPlanePSD p.IBxx p.IBxz p.IBzz) (IH : InPlanePSD p.IHxx p.IHxz p.IHzz)

/-- The quadratic form of `M` as a sum over the four bodies. -/
theorem quadForm_M (p : Bench) (hA : p.mA ≠ 0) (hT : p.mT ≠ 0) (phid deltad : ℝ) :
    ![phid, deltad] ⬝ᵥ (p.canon.M *ᵥ ![phid, deltad]) =
      (let psid := p.mu * deltad
       let ax := phid + sin p.lam * deltad
       let az := psid + cos p.lam * deltad
       p.mR * (p.rR * phid) ^ 2 + p.IRxx * phid ^ 2 + p.IRxx * psid ^ 2 +
       (p.mB * (p.xB * psid - p.zB * phid) ^ 2 +
        (p.IBxx * phid ^ 2 + 2 * p.IBxz * phid * psid + p.IBzz * psid ^ 2)) +
       (p.mH * (p.xH * psid - p.zH * phid +
          deltad * ((p.xH - p.w - p.c) * cos p.lam - p.zH * sin p.lam)) ^ 2 +
        (p.IHxx * ax ^ 2 + 2 * p.IHxz * ax * az + p.IHzz * az ^ 2)) +
       (p.mF * (p.w * psid + p.rF * phid + deltad * (-p.c * cos p.lam + p.rF * sin p.lam)) ^ 2 +
        p.IFxx * ax ^ 2 + p.IFxx * az ^ 2)) := by
  rw [canon_eq_canonOfMoments p hA hT, momT_eq, momA_eq]
  simp [canonOfMoments, dotProduct, Matrix.mulVec, Bench.mu,
    Bench.mA, Bench.ITxx, Bench.ITxz, Bench.ITzz, Bench.IRzz, Bench.IFzz]
  generalize p.c / p.w = r
  ring

/-- **C04.** `M` is positive semidefinite for every physical bicycle. -/
theorem C04_mass_matrix_psd (p : Bench) (h : p.Physical) (q : Fin 2 → ℝ) :
    0 ≤ q ⬝ᵥ (p.canon.M *ᵥ q) := by
  have hq : q = ![q 0, q 1] := by ext i; fin_cases i <;> rfl
  rw [hq, quadForm_M p h.mA h.mT]
  have h1 := h.IB (q 0) (p.mu * q 1)
  have h2 := h.IH (q 0 + sin p.lam * q 1) (p.mu * q 1 + cos p.lam * q 1)
  have := h.mR; have := h.mB; have := h.mH; have := h.mF; have := h.IR; have := h.IF
  simp only []
  positivity

/-- **C04.** `M` is positive definite when moreover the frame's and the fork's
in-plane inertias are positive definite. -/
theorem C04_mass_matrix_pd (p : Bench) (h : p.Physical)
    (hB : InPlanePD p.IBxx p.IBxz p.IBzz) (hH : InPlanePD p.IHxx p.IHxz p.IHzz)
    (q : Fin 2 → ℝ) (hq0 : q ≠ 0) : 0 < q ⬝ᵥ (p.canon.M *ᵥ q) := by
  have hq : q = ![q 0, q 1] := by ext i; fin_cases i <;> rfl
  have hne : q 0 ≠ 0 ∨ q 1 ≠ 0 := by
    by_contra hc
    push Not at hc
    exact hq0 (by ext i; fin_cases i <;> simp [hc.1, hc.2])
  rw [hq, quadForm_M p h.mA h.mT]
  have := h.mR; have := h.mB; have := h.mH; have := h.mF; have := h.IR; have := h.IF
  have h1 := h.IB (q 0) (p.mu * q 1)
  have h2 := h.IH (q 0 + sin p.lam * q 1) (p.mu * q 1 + cos p.lam * q 1)
  simp only []
  by_cases h0 : q 0 ≠ 0
  · have := hB (q 0) (p.mu * q 1) (Or.inl h0)
    positivity
  · push Not at h0
    have h1' : q 1 ≠ 0 := by rcases hne with h | h <;> [exact absurd h0 h; exact h]
    have hsc : sin p.lam ≠ 0 ∨ cos p.lam ≠ 0 := by
      by_contra hc
      push Not at hc
      have := sin_sq_add_cos_sq p.lam
      rw [hc.1, hc.2] at this; norm_num at this
    by_cases hmu : p.mu * q 1 ≠ 0
    · have := hB (q 0) (p.mu * q 1) (Or.inr hmu)
      positivity
    · push Not at hmu
      have hx : (q 0 + sin p.lam * q 1 ≠ 0) ∨ (p.mu * q 1 + cos p.lam * q 1 ≠ 0) := by
        rw [h0, hmu]
        rcases hsc with h | h
        · left; simpa using ⟨h, h1'⟩
        · right; simpa using ⟨h, h1'⟩
      have := hH _ _ hx
      positivity

/-- **C04.** So `ab_matrix` never meets a singular mass matrix for such a bicycle. -/
theorem C04_mass_matrix_invertible (p : Bench) (h : p.Physical)
    (hB : InPlanePD p.IBxx p.IBxz p.IBzz) (hH : InPlanePD p.IHxx p.IHxz p.IHzz) :
    0 < p.canon.M.det := by
  have hM : p.canon.M 0 1 = p.canon.M 1 0 := by simp [Bench.canon, Bench.M]
  have h0 := C04_mass_matrix_pd p h hB hH ![1, 0] (by intro hc; simpa using congrFun hc 0)
  have h1 := C04_mass_matrix_pd p h hB hH ![-p.canon.M 0 1, p.canon.M 0 0] (by
    intro hc
    have := congrFun hc 1
    simp [dotProduct, Matrix.mulVec] at this h0
    rw [this] at h0; exact lt_irrefl _ h0)
  simp [dotProduct, Matrix.mulVec] at h0 h1
  rw [det_fin_two]
  rw [hM] at *
  nlinarith [h0, h1]

/-- A concrete bicycle (non-zero trail, products of inertia) ... -/
noncomputable def exampleBench : Bench :=
  { w := 1, c := 1 / 10, lam := 1 / 3, rR := 1 / 3, mR := 2, IRxx := 1 / 10, IRyy := 1 / 8,
    xB := 1 / 3, zB := -1, mB := 85, IBxx := 9, IBxz := 2, IBzz := 3,
    xH := 9 / 10, zH := -7 / 10, mH := 4, IHxx := 1 / 20, IHxz := -1 / 200, IHzz := 1 / 100,
    rF := 1 / 3, mF := 3, IFxx := 1 / 7, IFyy := 1 / 4 }

theorem exampleBench_physical : exampleBench.Physical ∧
    InPlanePD exampleBench.IBxx exampleBench.IBxz exampleBench.IBzz ∧
    InPlanePD exampleBench.IHxx exampleBench.IHxz exampleBench.IHzz := by
  have hB : InPlanePD 9 2 3 := by
    intro a b hab
    rcases hab with h | h
    · have := sq_pos_of_ne_zero h; nlinarith [sq_nonneg (2 * a + 3 * b)]
    · have := sq_pos_of_ne_zero h; nlinarith [sq_nonneg (9 * a + 2 * b)]
  have hH : InPlanePD (1 / 20) (-1 / 200) (1 / 100) := by
    intro a b hab
    rcases hab with h | h
    · have := sq_pos_of_ne_zero h; nlinarith [sq_nonneg (a - 2 * b)]
    · have := sq_pos_of_ne_zero h; nlinarith [sq_nonneg (10 * a - b)]
  refine ⟨⟨?_, ?_, ?_, ?_, ?_, ?_, ?_, ?_, ?_, hB.psd, hH.psd⟩, hB, hH⟩ <;>
    norm_num [exampleBench, Bench.mA, Bench.mT]

/-- non-vacuity of C04 (all parts): the bicycle above is physical, and a steer rate of 1
with yaw rate `(c/w) cos λ` meets the no-side-slip condition. -/
example : exampleBench.Physical ∧
    velFront exampleBench.w exampleBench.c exampleBench.lam 1
      (exampleBench.c / exampleBench.w * cos exampleBench.lam * 1) 1 ![exampleBench.w, 0, 0] 1 = 0 := by
  refine ⟨exampleBench_physical.1, ?_⟩
  simp [velFront, velRear, rotVel, omegaRear, steerDir, crossProduct, exampleBench]
  ring

/-! ## C05: only the mass moments matter -/

/-- **C05.** Two bicycles with the same steering geometry and wheel spin ratios, and
the same mass moments (mass, first moments, inertia about the rear contact point)
of the whole bicycle and of the front assembly, have the same canonical matrices.
In particular mass may be moved between rear wheel, frame and a rider fixed to it. -/
theorem C05_canonical_depends_on_moments (p q : Bench)
    (hpA : p.mA ≠ 0) (hpT : p.mT ≠ 0) (hqA : q.mA ≠ 0) (hqT : q.mT ≠ 0)
    (hw : p.w = q.w) (hc : p.c = q.c) (hl : p.lam = q.lam)
    (hR : p.IRyy / p.rR = q.IRyy / q.rR) (hF : p.IFyy / p.rF = q.IFyy / q.rF)
    (hT : p.bodyR.moments + (p.bodyB 0).moments + ((p.bodyH 0).moments + p.bodyF.moments) =
      q.bodyR.moments + (q.bodyB 0).moments + ((q.bodyH 0).moments + q.bodyF.moments))
    (hA : (p.bodyH 0).moments + p.bodyF.moments = (q.bodyH 0).moments + q.bodyF.moments) :
    p.canon = q.canon := by
  have hA' : p.momA = q.momA := hA
  have hT' : p.momT = q.momT := hT
  rw [canon_eq_canonOfMoments p hpA hpT, canon_eq_canonOfMoments q hqA hqT, hA', hT', hw, hc, hl,
    show p.SR = q.SR from hR, show p.SF = q.SF from hF]

/-- non-vacuity of C05: moving the rear wheel's mass into the frame keeps the moments. -/
example : ∃ p q : Bench, p.mB ≠ q.mB ∧ p.zB ≠ q.zB ∧ p.w = q.w ∧ p.mT ≠ 0 ∧ q.mT ≠ 0 ∧
    p.bodyR.moments + (p.bodyB 0).moments = q.bodyR.moments + (q.bodyB 0).moments := by
  refine ⟨{ exampleBench with rR := 1, mR := 1, IRxx := 1, mB := 1, xB := 0, zB := -3, IBxx := 0, IBxz := 0, IBzz := 1 },
    { exampleBench with rR := 1, mR := 0, IRxx := 1, mB := 2, xB := 0, zB := -2, IBxx := 2, IBxz := 0, IBzz := 1 },
    ?_, ?_, rfl, ?_, ?_, ?_⟩ <;> try norm_num [exampleBench, Bench.mT]
  simp only [Bench.bodyR, Bench.bodyB, moments_planarBody]
  ext <;> norm_num

/-! ## C76: a bicycle at rest falls over -/

/-- **C76.** At zero speed, with positive gravity and the mass centre above the
ground, the state matrix of every physical bicycle has a positive real eigenvalue. -/
theorem C76_unstable_at_rest (p : Bench) (h : p.Physical)
    (hB : InPlanePD p.IBxx p.IBxz p.IBzz) (hH : InPlanePD p.IHxx p.IHxz p.IHzz)
    (g : ℝ) (hg : 0 < g) (hz : p.zT < 0) :
    ∃ l : ℝ, 0 < l ∧
      IsEigenvalue (toC (abA p.canon.M p.canon.C1 p.canon.K0 p.canon.K2 0 g)) (l : ℂ) := by
  have hdet := C04_mass_matrix_invertible p h hB hH
  have hM00 : 0 < p.canon.M 0 0 := by
    have h0 := C04_mass_matrix_pd p h hB hH ![1, 0] (by intro hc; simpa using congrFun hc 0)
    simpa [dotProduct, Matrix.mulVec] using h0
  have hMs : p.canon.M 0 1 = p.canon.M 1 0 := by simp [Bench.canon, Bench.M]
  have hKs : p.canon.K0 0 1 = p.canon.K0 1 0 := by simp [Bench.canon, Bench.K0]
  have hmT : 0 < p.mT := by
    have h1 : 0 ≤ p.mT := by
      have := h.mR; have := h.mB; have := h.mH; have := h.mF
      unfold Bench.mT; positivity
    exact lt_of_le_of_ne h1 (Ne.symm h.mT)
  have hK : p.canon.K0 0 0 < 0 := by
    have : p.canon.K0 0 0 = p.mT * p.zT := by simp [Bench.canon, Bench.K0]
    rw [this]; exact mul_neg_of_pos_of_neg hmT hz
  set M := p.canon.M with hMdef
  set K := p.canon.K0 with hKdef
  -- f s = det (s M + g K0)
  let f : ℝ → ℝ := fun s => (s * M 0 0 + g * K 0 0) * (s * M 1 1 + g * K 1 1) -
    (s * M 0 1 + g * K 0 1) * (s * M 1 0 + g * K 1 0)
  have hcont : Continuous f := by fun_prop
  let s0 := -(g * K 0 0) / M 0 0
  have hs0 : 0 < s0 := div_pos (by nlinarith) hM00
  have hf0 : f s0 ≤ 0 := by
    have e : s0 * M 0 0 + g * K 0 0 = 0 := by simp only [s0]; field_simp; ring
    simp only [f, e, hMs, hKs]
    nlinarith [sq_nonneg (s0 * M 1 0 + g * K 1 0)]
  have hlead : ∃ s1, s0 ≤ s1 ∧ 0 ≤ f s1 := by
    -- f s = D s² + b s + c with D > 0
    let D := M.det
    let b := g * (M 0 0 * K 1 1 + K 0 0 * M 1 1 - M 0 1 * K 1 0 - K 0 1 * M 1 0)
    let c := g ^ 2 * (K 0 0 * K 1 1 - K 0 1 * K 1 0)
    have hf : ∀ s, f s = D * s ^ 2 + b * s + c := by
      intro s; simp only [f, D, b, c, det_fin_two]; ring
    refine ⟨s0 + 1 + (|b| + |c|) / D, ?_, ?_⟩
    · have : 0 ≤ (|b| + |c|) / D := div_nonneg (by positivity) hdet.le
      linarith
    · rw [hf]
      set t := s0 + 1 + (|b| + |c|) / D with ht
      have hDt : |b| + |c| ≤ D * t := by
        have : D * t = D * (s0 + 1) + (|b| + |c|) := by
          have hD : D ≠ 0 := hdet.ne'
          rw [ht]; field_simp
        have : 0 < D * (s0 + 1) := mul_pos hdet (by linarith)
        linarith
      have ht1 : 1 ≤ t := by
        have : 0 ≤ (|b| + |c|) / D := div_nonneg (by positivity) hdet.le
        linarith
      have hb := neg_abs_le b
      have hc := neg_abs_le c
      have h1 : (|b| + |c|) * t ≤ D * t * t := mul_le_mul_of_nonneg_right hDt (by linarith)
      have h2 : -|b| * t ≤ b * t := mul_le_mul_of_nonneg_right hb (by linarith)
      have h3 : |c| ≤ |c| * t := le_mul_of_one_le_right (abs_nonneg c) ht1
      nlinarith
  obtain ⟨s1, hs01, hf1⟩ := hlead
  obtain ⟨s, ⟨hsl, _⟩, hs⟩ := intermediate_value_Icc hs01 hcont.continuousOn ⟨hf0, hf1⟩
  have hspos : 0 < s := lt_of_lt_of_le hs0 hsl
  refine ⟨Real.sqrt s, Real.sqrt_pos.2 hspos, ?_⟩
  rw [C02_eigenvalues_are_roots _ _ _ _ _ _ _ hdet.ne']
  have hsq : ((Real.sqrt s : ℝ) : ℂ) ^ 2 = (s : ℂ) := by
    rw [← Complex.ofReal_pow, Real.sq_sqrt hspos.le]
  rw [hsq]
  have : ((s * M 0 0 + g * K 0 0) * (s * M 1 1 + g * K 1 1) -
    (s * M 0 1 + g * K 0 1) * (s * M 1 0 + g * K 1 0) : ℂ) = 0 := by exact_mod_cast hs
  simp [det_fin_two, toC]
  exact this

/-- non-vacuity of C76 -/
example : exampleBench.Physical ∧ exampleBench.zT < 0 := by
  refine ⟨exampleBench_physical.1, ?_⟩
  norm_num [exampleBench, Bench.zT, Bench.mT]

end BP
