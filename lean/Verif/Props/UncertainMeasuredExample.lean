import Mathlib.LinearAlgebra.Matrix.ToLinearEquiv
import Mathlib.LinearAlgebra.Matrix.DotProduct
import Verif.Props.UncertainMeasuredMain
import Verif.Props.Pipeline

/-!
# The hypotheses of C125 are met

A pseudo-inverse with uncertainties that satisfies both contracts, and the measurements of the
example of C81 with arbitrary uncertainties.
-/

set_option linter.unusedSimpArgs false

namespace BP

open Matrix Spec

/-! ## A pseudo-inverse -/

section pinv
variable {R : Type} [PyNumT R]

/-- `Aᵀ A`. -/
def gramN {n : ℕ} (A : Matrix (Fin n) (Fin 3) R) : Matrix (Fin 3) (Fin 3) R :=
  fun a b => sumN ((List.finRange n).map fun i => A i a * A i b)

/-- The adjugate of a three by three matrix. -/
def adjN (S : Matrix (Fin 3) (Fin 3) R) : Matrix (Fin 3) (Fin 3) R :=
  fun a b => S (b + 1) (a + 1) * S (b + 2) (a + 2) - S (b + 1) (a + 2) * S (b + 2) (a + 1)

/-- The determinant of a three by three matrix. -/
def detN (S : Matrix (Fin 3) (Fin 3) R) : R :=
  S 0 0 * adjN S 0 0 + S 0 1 * adjN S 1 0 + S 0 2 * adjN S 2 0

/-- `(Aᵀ A)⁻¹ Aᵀ`. -/
def pinvN {n : ℕ} (A : Matrix (Fin n) (Fin 3) R) : Matrix (Fin 3) (Fin n) R :=
  fun k i => adjN (gramN A) k 0 / detN (gramN A) * A i 0 + adjN (gramN A) k 1 / detN (gramN A) * A i 1 +
    adjN (gramN A) k 2 / detN (gramN A) * A i 2

end pinv

theorem sumN_finRange {n : ℕ} (f : Fin n → ℝ) : sumN ((List.finRange n).map f) = ∑ i, f i := by
  rw [sumN_real, List.sum_ofFn.symm.trans (by rw [List.ofFn_eq_map])]

theorem detN_real (S : Matrix (Fin 3) (Fin 3) ℝ) : detN S = S.det := by
  rw [Matrix.det_fin_three]
  simp only [detN, adjN]
  simp [show (1 : Fin 3) + 1 = 2 from rfl, show (1 : Fin 3) + 2 = 0 from rfl, show (2 : Fin 3) + 1 = 0 from rfl,
    show (2 : Fin 3) + 2 = 1 from rfl]
  ring

theorem adjN_mul (S : Matrix (Fin 3) (Fin 3) ℝ) (k j : Fin 3) :
    adjN S k 0 * S 0 j + adjN S k 1 * S 1 j + adjN S k 2 * S 2 j = if k = j then detN S else 0 := by
  simp only [detN, adjN]
  fin_cases k <;> fin_cases j <;> simp [show (1 : Fin 3) + 1 = 2 from rfl, show (1 : Fin 3) + 2 = 0 from rfl,
    show (2 : Fin 3) + 1 = 0 from rfl, show (2 : Fin 3) + 2 = 1 from rfl] <;> ring

theorem pinvN_mul {n : ℕ} (A : Matrix (Fin n) (Fin 3) ℝ) (h : detN (gramN A) ≠ 0) : pinvN A * A = 1 := by
  ext k j
  rw [Matrix.mul_apply]
  have hg : ∀ a b, ∑ i, A i a * A i b = gramN A a b := fun a b => (sumN_finRange _).symm
  have : ∑ i, pinvN A k i * A i j = (adjN (gramN A) k 0 * gramN A 0 j + adjN (gramN A) k 1 * gramN A 1 j +
      adjN (gramN A) k 2 * gramN A 2 j) / detN (gramN A) := by
    rw [← hg 0 j, ← hg 1 j, ← hg 2 j]
    simp only [pinvN, Finset.mul_sum, ← Finset.sum_add_distrib, Finset.sum_div]
    exact Finset.sum_congr rfl fun i _ => by ring
  rw [this, adjN_mul]
  by_cases hkj : k = j
  · subst hkj
    rw [if_pos rfl, div_self h, Matrix.one_apply_eq]
  · rw [if_neg hkj, zero_div, Matrix.one_apply_ne hkj]

theorem gram_det_ne {n : ℕ} (A : Matrix (Fin n) (Fin 3) ℝ) (h : ∀ x : Fin 3 → ℝ, A *ᵥ x = 0 → x = 0) :
    detN (gramN A) ≠ 0 := by
  rw [detN_real]
  intro h0
  obtain ⟨x, hx, h1⟩ := Matrix.exists_mulVec_eq_zero_iff.2 h0
  apply hx
  apply h
  have hg : gramN A = Aᵀ * A := by
    ext a b
    rw [Matrix.mul_apply]
    exact sumN_finRange _
  rw [hg] at h1
  have h2 : (A *ᵥ x) ⬝ᵥ (A *ᵥ x) = 0 := by
    rw [Matrix.dotProduct_mulVec, ← Matrix.mulVec_transpose, Matrix.mulVec_mulVec, h1, zero_dotProduct]
  exact dotProduct_self_eq_zero.1 h2

/-- Some generalised inverse. -/
noncomputable def anyInv (n : ℕ) (A : Matrix (Fin n) (Fin 3) ℝ) : Matrix (Fin 3) (Fin n) ℝ :=
  exists_generalised_inverse.choose n A

open Classical in
/-- A generalised inverse: `(Aᵀ A)⁻¹ Aᵀ` at matrices of full column rank. -/
noncomputable def exInv : MatInv ℝ := fun n A =>
  if detN (gramN A) ≠ 0 then pinvN A else anyInv n A

theorem exInv_generalised (n : ℕ) (A : Matrix (Fin n) (Fin 3) ℝ) : A * exInv n A * A = A := by
  unfold exInv
  split_ifs with h
  · rw [Matrix.mul_assoc, pinvN_mul A h, Matrix.mul_one]
  · exact exists_generalised_inverse.choose_spec n A

section uncertain
variable {ι : Type}

open Classical in
/-- The same with first-order propagation. -/
noncomputable def exInvU : MatInv (UNum ι) := fun n A =>
  if detN (gramN (nominalValues A)) ≠ 0 then pinvN A
  else (anyInv n (nominalValues A)).map PyNum.lit

theorem gramN_nom {n : ℕ} (A : Matrix (Fin n) (Fin 3) (UNum ι)) (a b : Fin 3) :
    (gramN A a b).nom = gramN (nominalValues A) a b := by
  unfold gramN
  rw [← sumN_nom, List.map_map]
  rfl

theorem adjN_nom (S : Matrix (Fin 3) (Fin 3) (UNum ι)) (a b : Fin 3) :
    (adjN S a b).nom = adjN (nominalValues S) a b := rfl

theorem gramN_nominal {n : ℕ} (A : Matrix (Fin n) (Fin 3) (UNum ι)) :
    nominalValues (gramN A) = gramN (nominalValues A) := by
  ext a b
  exact gramN_nom A a b

theorem detN_nom (S : Matrix (Fin 3) (Fin 3) (UNum ι)) : (detN S).nom = detN (nominalValues S) := rfl

theorem exInv_nominal : NominalInv exInv (exInvU (ι := ι)) := by
  intro n A
  unfold exInv exInvU
  by_cases h : detN (gramN (nominalValues A)) ≠ 0
  · rw [if_pos h, if_pos h]
    ext k i
    show pinvN (nominalValues A) k i = (pinvN A k i).nom
    unfold pinvN
    rw [← gramN_nominal]
    rfl
  · rw [if_neg h, if_neg h]
    rfl

variable [DecidableEq ι]

theorem exInv_propagates : PropagatesInv exInv (exInvU (ι := ι)) := by
  intro n F A hT hr k i
  have hd := gram_det_ne (nominalValues A) hr
  have hdn : (detN (gramN A)).nom ≠ 0 := by rw [detN_nom, gramN_nominal]; exact hd
  have hg : ∀ a b, Tracks (fun z => gramN (F z) a b) (gramN A a b) := fun a b =>
    sumN_tracks (l := List.finRange n) fun i _ => (hT i a).mul (hT i b)
  have ha : ∀ a b, Tracks (fun z => adjN (gramN (F z)) a b) (adjN (gramN A) a b) := fun a b =>
    ((hg _ _).mul (hg _ _)).sub ((hg _ _).mul (hg _ _))
  have hdet : Tracks (fun z => detN (gramN (F z))) (detN (gramN A)) :=
    (((hg 0 0).mul (ha 0 0)).add ((hg 0 1).mul (ha 1 0))).add ((hg 0 2).mul (ha 2 0))
  have hp : Tracks (fun z => pinvN (F z) k i) (pinvN A k i) :=
    ((((ha k 0).div hdet hdn).mul (hT i 0)).add (((ha k 1).div hdet hdn).mul (hT i 1))).add
      (((ha k 2).div hdet hdn).mul (hT i 2))
  have hn := Near.ne_zero hdet hdn
  have hU : exInvU n A = pinvN A := by
    unfold exInvU
    rw [if_pos hd]
  rw [hU]
  have he : Near fun z => exInv n (F z) k i = pinvN (F z) k i := Near.mono hn fun z hz => by
    unfold exInv
    rw [if_pos hz]
  refine ⟨he.1.trans hp.1, fun j => (hp.2 j).congr_of_eventuallyEq (he.2 j)⟩

end uncertain

/-! ## Measurements -/

section example_
variable {ι : Type} [Fintype ι]

/-- The measurements of the example of C81, that under the key `k` depending on the variable `i`
with the coefficient `s k i`. -/
noncomputable def exU (s : String → ι → ℝ) : Dict (FloatOrU ι) := exMp.map fun e => (e.1, .u ⟨e.2, s e.1⟩)

omit [Fintype ι] in
theorem exU_nominal (s : String → ι → ℝ) : nominalMeasurements (exU s) = exMp := by
  unfold nominalMeasurements exU
  rw [List.map_map]
  exact List.map_id _

omit [Fintype ι] in
theorem exU_keys (s : String → ι → ℝ) : (exU s).keys = exMp.keys := by
  unfold exU Dict.keys
  rw [List.map_map]
  rfl

/-- The measured quantities of the example: linear in the deviations. -/
noncomputable def exQ (s : String → ι → ℝ) (k : String) (z : ι → ℝ) : ℝ := exMp.getD k 0 + ∑ i, s k i * z i

theorem exU_tracks [DecidableEq ι] (s : String → ι → ℝ) : ∀ e ∈ exU s, Tracks (exQ s e.1) e.2.num := by
  intro e he
  obtain ⟨⟨k, v⟩, hm, rfl⟩ := List.mem_map.1 he
  have hv : exMp.getD k 0 = v := Dict.getD_eq_of_find? _ _ _ _ (exMp_find hm)
  refine ⟨?_, fun i => ?_⟩
  · show exMp.getD k 0 + ∑ i, s k i * (0 : ι → ℝ) i = v
    simp [hv]
  · show HasDerivAt (fun t : ℝ => exMp.getD k 0 + ∑ j, s k j * (Pi.single i t : ι → ℝ) j) (s k i) 0
    have : (fun t : ℝ => exMp.getD k 0 + ∑ j, s k j * (Pi.single i t : ι → ℝ) j) =
        fun t => exMp.getD k 0 + s k i * t := by
      funext t
      congr 1
      rw [Finset.sum_eq_single i]
      · rw [Pi.single_eq_same]
      · intro j _ hj
        rw [Pi.single_eq_of_ne hj, mul_zero]
      · intro h; exact absurd (Finset.mem_univ i) h
    rw [this]
    simpa using ((hasDerivAt_id (0 : ℝ)).const_mul (s k i)).const_add (exMp.getD k 0)

theorem exU_calculates (s : String → ι → ℝ) :
    ∃ par lines, calculateBenchmarkU (fun _ x => .ok x) exInvU (exU s) = .ok (par, lines) ∧
      calculateBenchmark (fun _ x => .ok x) exInv exMp = .ok (nominalDict par, nominalLines lines) ∧
      ∀ p ∈ frameParts true, partOf (nominalDict par) p = exBody p := by
  obtain ⟨par, lines, h, hp⟩ := exMp_calculates exInv exInv_generalised
  have hw : (exU s).has "w" = true := by
    rw [Dict.has_iff_mem_keys, exU_keys, exMp_keys]; decide
  rcases C125_nominal (fun _ x => .ok x) exInv_nominal (exU s) with hn | ⟨-, hn⟩
  · rw [exU_nominal, h] at hn
    cases hU : calculateBenchmarkU (fun _ x => .ok x) exInvU (exU s) with
    | error e => rw [hU] at hn; cases hn
    | ok r =>
      rw [hU] at hn
      simp only [Except.map, Except.ok.injEq, Prod.mk.injEq] at hn
      refine ⟨r.1, r.2, rfl, ?_, ?_⟩
      · rw [h, hn.1, hn.2]
      · rw [← hn.1]; exact hp
  · rw [hw] at hn; cases hn

omit [Fintype ι] in
theorem exU_out (s : String → ι → ℝ) : nominalDict ((exU s).map fun e => (e.1, e.2.out)) = exMp := by
  rw [nominalDict_out, exU_nominal]

theorem exU_regular (s : String → ι → ℝ) (par : Dict (UNum (Option ι)))
    (lines : Dict (List (UNum (Option ι) × UNum (Option ι) × UNum (Option ι))))
    (h : calculateBenchmark (fun _ x => .ok x) exInv exMp = .ok (nominalDict par, nominalLines lines))
    (hp : ∀ p ∈ frameParts true, partOf (nominalDict par) p = exBody p) :
    Regular ((exU s).map fun e => (e.1, e.2.out)) par lines := by
  obtain ⟨geo, p1, l1, l2, u1, u2, k, f1, f2, f3, f4, f5, -⟩ := calculateBenchmark_facts h
  obtain ⟨geo', g0, g1, g2, g3, g4⟩ := exMp_geo
  rw [f1] at g0
  cases g0
  have lam : (nominalDict par).getD "lam" 0 = Real.pi / 6 := by
    rw [← exLam_eq, ← g1]; unfold Dict.getD; rw [(f5 "lam" (by simp)).1]
  have w : (nominalDict par).getD "w" 0 = 1 := by
    rw [← g2]; unfold Dict.getD; rw [(f5 "w" (by simp)).1]
  have hB := hp "B" (by simp [frameParts])
  have hG := hp "G" (by simp [frameParts])
  have hS := hp "S" (by simp [frameParts])
  have xB : (nominalDict par).getD "xB" 0 = 1 := congrArg Part.x hB
  have xS : (nominalDict par).getD "xS" 0 = 2 := congrArg Part.x hS
  have xG : (nominalDict par).getD "xG" 0 = 0 := congrArg Part.x hG
  have mS : (nominalDict par).getD "mS" 0 = 1 := congrArg Part.m hS
  have mG : (nominalDict par).getD "mG" 0 = 1 := congrArg Part.m hG
  have hsp : isForkSplit ((exU s).map fun e => (e.1, e.2.out)) = true := by
    have : Dict.keys ((exU s).map fun e => (e.1, e.2.out)) = exMp.keys := by
      rw [← keys_nominalDict, exU_out]
    unfold isForkSplit
    rw [this]
    exact exMp_split
  have get : ∀ {k : String} {v : ℝ}, (k, v) ∈ exMp → exMp.getD k 0 = v := fun hm =>
    Dict.getD_eq_of_find? _ _ _ _ (exMp_find hm)
  have hpi := Real.pi_pos
  have c30 : Real.cos (Real.pi / 6) ≠ 0 := by rw [Real.cos_pi_div_six]; positivity
  constructor
  · rw [lam]; exact c30
  · intro k hk hpre
    rw [exU_out, lam]
    have hk' : k ∈ exMp.keys := by
      have : Dict.keys ((exU s).map fun e => (e.1, e.2.out)) = exMp.keys := by
        rw [← keys_nominalDict, exU_out]
      rwa [this] at hk
    obtain ⟨b0, b1, b2⟩ := exBeta
    rw [exLam_eq] at b0 b1 b2
    have c0 : Real.cos (Real.pi / 6 - exAlpha 0 * Real.pi / 180) ≠ 0 := by rw [b0, Real.cos_zero]; norm_num
    have c1 : Real.cos (Real.pi / 6 - exAlpha 1 * Real.pi / 180) ≠ 0 := by
      rw [b1, Real.cos_neg, Real.cos_pi_div_four]; positivity
    have c2 : Real.cos (Real.pi / 6 - exAlpha 2 * Real.pi / 180) ≠ 0 := by
      rw [b2, Real.cos_pi_div_four]; positivity
    have hmem : k ∈ ["alphaB1", "alphaB2", "alphaB3", "alphaG1", "alphaG2", "alphaG3", "alphaS1", "alphaS2",
        "alphaS3"] := by
      have : k ∈ exMp.keys.filter fun k => "alpha".toList.isPrefixOf k.toList := List.mem_filter.2 ⟨hk', hpre⟩
      rw [exMp_keys] at this
      exact this
    have hmp : ∀ e, e ∈ exPart (0, -wheelRadius 1 1) "B" (exBody "B") ++
        exPart (1 - exU1, -(wheelRadius 1 1 + exU2)) "G" (exBody "G") ++
        exPart (1, -wheelRadius 1 1) "S" (exBody "S") → e ∈ exMp := by
      intro e he
      simp only [exMp, List.mem_append] at he ⊢
      tauto
    simp only [List.mem_cons, List.not_mem_nil, or_false] at hmem
    rcases hmem with rfl | rfl | rfl | rfl | rfl | rfl | rfl | rfl | rfl
    · rw [get (v := exAlpha 0) (hmp _ (by simp [exPart]))]; exact c0
    · rw [get (v := exAlpha 1) (hmp _ (by simp [exPart]))]; exact c1
    · rw [get (v := exAlpha 2) (hmp _ (by simp [exPart]))]; exact c2
    · rw [get (v := exAlpha 0) (hmp _ (by simp [exPart]))]; exact c0
    · rw [get (v := exAlpha 1) (hmp _ (by simp [exPart]))]; exact c1
    · rw [get (v := exAlpha 2) (hmp _ (by simp [exPart]))]; exact c2
    · rw [get (v := exAlpha 0) (hmp _ (by simp [exPart]))]; exact c0
    · rw [get (v := exAlpha 1) (hmp _ (by simp [exPart]))]; exact c1
    · rw [get (v := exAlpha 2) (hmp _ (by simp [exPart]))]; exact c2
  · intro pl hpl
    have hkeys := (C77_part_com_lines _ _ _ _ _ _ f4).1
    rw [exMp_split] at f4 hkeys
    have hmem : (pl.1, pl.2.map nominalTriple) ∈ nominalLines lines := List.mem_map.2 ⟨pl, hpl, rfl⟩
    have hpk : pl.1 ∈ frameParts true := by
      have := List.mem_map_of_mem (f := Prod.fst) hmem
      have : pl.1 ∈ (nominalLines lines).keys := this
      rw [hkeys] at this
      exact this
    obtain ⟨l, hl, hlen, -⟩ := lines_of_part f4 pl.1 hpk 3 (by norm_num) exMp_nodup (exMp_orientations _ hpk)
    have hnd : (nominalLines lines).keys.Nodup := by rw [hkeys]; decide
    have e1 := Dict.find?_of_mem hnd hl
    rw [Dict.find?_of_mem hnd hmem] at e1
    have : pl.2.map nominalTriple = l := Option.some.inj e1
    rw [← hlen, ← this, List.length_map]
  · rw [exU_out, get (k := "TtP1") (v := 2 * Real.pi * √(1 * (3 * (1 / 2) ^ 2 + 1 ^ 2) / 12 / 1)) (by simp [exMp])]
    positivity
  · left; rw [xB]; norm_num
  · intro h0; rw [hsp] at h0; cases h0
  · intro _; rw [mS, mG]; norm_num
  · intro _
    rw [exU_out, get (k := "h7") (v := 2) (by simp [exMp]), get (k := "h6") (v := 2) (by simp [exMp]),
      get (k := "d5") (v := 1 / 5) (by simp [exMp]), get (k := "d6") (v := 1 / 5) (by simp [exMp]),
      get (k := "l") (v := 6 / 5) (by simp [exMp])]
    norm_num
  · intro _; left; rw [xS, w]; norm_num
  · intro _ l u hl hu
    left
    rw [exU_out, get (k := "h7") (v := 2) (by simp [exMp]), get (k := "h6") (v := 2) (by simp [exMp]),
      get (k := "d5") (v := 1 / 5) (by simp [exMp]), get (k := "d6") (v := 1 / 5) (by simp [exMp]),
      get (k := "l") (v := 6 / 5) (by simp [exMp])] at hl
    have hl' : l = (0, 1) := by
      unfold calculateL1L2 at hl
      norm_num at hl
      rw [← hl]
    subst hl'
    rw [lam] at hu
    unfold fwheelToHandlebarRef at hu
    norm_num at hu
    rw [xG, w, ← hu]
    norm_num

/-- non-vacuity of C125: the calculation succeeds and is regular, with uncertainties in every
measurement -/
example [DecidableEq ι] (s : String → ι → ℝ) : ∃ par lines,
    calculateBenchmarkU (fun _ x => .ok x) exInvU (exU s) = .ok (par, lines) ∧
    Regular ((exU s).map fun e => (e.1, e.2.out)) par lines ∧ (exU s).has "w" = true ∧
    (nominalMeasurements (exU s)).getD "nF" 0 ≠ 0 ∧ (nominalMeasurements (exU s)).getD "nR" 0 ≠ 0 ∧
    (∀ e ∈ exU s, Tracks (exQ s e.1) e.2.num) ∧ PropagatesInv exInv (exInvU (ι := ι)) ∧
    NominalInv exInv (exInvU (ι := ι)) := by
  obtain ⟨par, lines, h, hn, hp⟩ := exU_calculates s
  refine ⟨par, lines, h, exU_regular s par lines hn hp, ?_, ?_, ?_, exU_tracks s, exInv_propagates, exInv_nominal⟩
  · rw [Dict.has_iff_mem_keys, exU_keys, exMp_keys]; decide
  · rw [exU_nominal, Dict.getD_eq_of_find? _ _ _ _ (exMp_find (k := "nF") (v := 1) (by simp [exMp]))]; norm_num
  · rw [exU_nominal, Dict.getD_eq_of_find? _ _ _ _ (exMp_find (k := "nR") (v := 1) (by simp [exMp]))]; norm_num

end example_

end BP
