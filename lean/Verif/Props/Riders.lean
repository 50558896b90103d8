import Verif.Props.Inertia
import Verif.Props.Canonical

/-!
# C146: a bicycle with a rider is a bicycle
-/

set_option linter.unusedSimpArgs false

namespace BP

open Real Matrix Spec

/-! ## Specification -/

/-- A dictionary with the parameters of a rider: the mass is not negative and the inertia is that of some body. -/
structure Spec.RiderLike (rp : Dict ℝ) : Prop where
  mass : 0 ≤ Dict.getD rp "mB" 0
  inertia : InPlanePSD (Dict.getD rp "IBxx" 0) (Dict.getD rp "IBxz" 0) (Dict.getD rp "IBzz" 0)

/-! ## Lemmas -/

/-- The in-plane quadratic form of the combined frame is the sum of those of its parts and of non-negative terms. -/
theorem combine_form (bike rider : Part) (hb : 0 ≤ bike.m) (hr : 0 ≤ rider.m) (a b : ℝ) :
    (bike.Ixx * a ^ 2 + 2 * bike.Ixz * a * b + bike.Izz * b ^ 2) +
      (rider.Ixx * a ^ 2 + 2 * rider.Ixz * a * b + rider.Izz * b ^ 2) ≤
    (combineParts bike rider).Ixx * a ^ 2 + 2 * (combineParts bike rider).Ixz * a * b +
      (combineParts bike rider).Izz * b ^ 2 := by
  simp only [combineParts, parallelAxis, Part.tensor]
  set t := totalCom [(rider.m, ![rider.x, rider.y, rider.z]), (bike.m, ![bike.x, 0, bike.z])] with ht
  simp
  have h1 := mul_nonneg hr (add_nonneg (sq_nonneg ((rider.z - t.2 2) * a - (rider.x - t.2 0) * b))
    (mul_nonneg (sq_nonneg (rider.y - t.2 1)) (add_nonneg (sq_nonneg a) (sq_nonneg b))))
  have h2 := mul_nonneg hb (sq_nonneg ((bike.z - t.2 2) * a - (bike.x - t.2 0) * b))
  linarith

theorem ofDict_combined (bp rp out : Dict ℝ) (h : combineBikeRider bp rp = .ok out) :
    Bench.ofDict out = (Bench.ofDict bp).withFrame (combineParts (partB bp) (partB rp)) := by
  obtain ⟨h1, h2⟩ := (C21_combine_dictionary bp rp).2 out h
  have hk : ∀ k, k ∉ ["mB", "xB", "yB", "zB", "IBxx", "IBxz", "IByy", "IBzz"] → Dict.getD out k 0 = Dict.getD bp k 0 := by
    intro k hk
    simp only [Dict.getD, h2 k hk]
  rw [← h1]
  simp only [Bench.ofDict, Bench.withFrame, partB]
  rw [hk "w" (by decide), hk "c" (by decide), hk "lam" (by decide), hk "rR" (by decide), hk "mR" (by decide),
    hk "IRxx" (by decide), hk "IRyy" (by decide), hk "xH" (by decide), hk "zH" (by decide), hk "mH" (by decide),
    hk "IHxx" (by decide), hk "IHxz" (by decide), hk "IHzz" (by decide), hk "rF" (by decide), hk "mF" (by decide),
    hk "IFxx" (by decide), hk "IFyy" (by decide)]

theorem combine_mass (bike rider : Part) : (combineParts bike rider).m = bike.m + rider.m := by
  simp [combineParts, totalCom, add_comm]

theorem combine_has (bp rp out : Dict ℝ) (h : combineBikeRider bp rp = .ok out) (k : String)
    (hk : k ∈ ["mB", "xB", "yB", "zB", "IBxx", "IBxz", "IByy", "IBzz"]) : Dict.has out k = true := by
  unfold combineBikeRider at h
  split at h
  · simp at h
  · split at h
    · simp at h
    · simp only [Except.ok.injEq] at h
      subst h
      rw [Dict.has_iff_exists]
      simp only [List.mem_cons, List.not_mem_nil, or_false] at hk
      rcases hk with rfl | rfl | rfl | rfl | rfl | rfl | rfl | rfl <;> simp [Dict.find?_set]

/-! ## Theorems -/

/-- **C146.** A sensible bicycle with a rider is a sensible bicycle, wherever the rider sits. -/
theorem C146_physical (bp rp out : Dict ℝ) (h : combineBikeRider bp rp = .ok out) (hb : (Bench.ofDict bp).Physical)
    (hr : RiderLike rp) : (Bench.ofDict out).Physical := by
  rw [ofDict_combined bp rp out h]
  have hm := combine_mass (partB bp) (partB rp)
  have hbm : 0 ≤ (partB bp).m := hb.mB
  have hrm : 0 ≤ (partB rp).m := hr.mass
  refine ⟨hb.mR, ?_, hb.mH, hb.mF, hb.mA, ?_, hb.w, hb.IR, hb.IF, ?_, hb.IH⟩
  · show 0 ≤ (combineParts (partB bp) (partB rp)).m
    rw [hm]; exact add_nonneg hbm hrm
  · have hT := hb.mT
    have := hb.mR; have := hb.mH; have := hb.mF; have := hb.mB
    have hpos : 0 < (Bench.ofDict bp).mT := lt_of_le_of_ne (by unfold Bench.mT; positivity) (Ne.symm hT)
    have e : ((Bench.ofDict bp).withFrame (combineParts (partB bp) (partB rp))).mT = (Bench.ofDict bp).mT + (partB rp).m := by
      simp only [Bench.mT, Bench.withFrame, hm]
      simp only [partB, Bench.ofDict]; ring
    rw [e]; positivity
  · intro a b
    have h1 := combine_form (partB bp) (partB rp) hbm hrm a b
    have h2 := hb.IB a b
    have h3 := hr.inertia a b
    exact le_trans (add_nonneg h2 h3) h1

/-- **C146.** If moreover frame and fork have proper inertias, so have those with the rider, and the mass matrix of the bicycle
with the rider is invertible. -/
theorem C146_mass_matrix (bp rp out : Dict ℝ) (h : combineBikeRider bp rp = .ok out) (hb : (Bench.ofDict bp).Physical)
    (hr : RiderLike rp) (hB : InPlanePD (Dict.getD bp "IBxx" 0) (Dict.getD bp "IBxz" 0) (Dict.getD bp "IBzz" 0))
    (hH : InPlanePD (Dict.getD bp "IHxx" 0) (Dict.getD bp "IHxz" 0) (Dict.getD bp "IHzz" 0)) :
    InPlanePD (Dict.getD out "IBxx" 0) (Dict.getD out "IBxz" 0) (Dict.getD out "IBzz" 0) ∧
    ∀ d' c, benchmarkParToCanonical out = (d', .ok c) → 0 < c.M.det := by
  have e := ofDict_combined bp rp out h
  have hpd : InPlanePD (Bench.ofDict out).IBxx (Bench.ofDict out).IBxz (Bench.ofDict out).IBzz := by
    rw [e]
    intro a b hab
    exact lt_of_lt_of_le (add_pos_of_pos_of_nonneg (hB a b hab) (hr.inertia a b))
      (combine_form (partB bp) (partB rp) hb.mB hr.mass a b)
  refine ⟨hpd, ?_⟩
  intro d' c hc
  obtain ⟨-, -, rfl⟩ := canonical_ok out d' c hc
  refine C04_mass_matrix_invertible _ (C146_physical bp rp out h hb hr) hpd ?_
  rw [e]
  exact hH

/-- **C146.** The moment of the masses about the ground is that of the bicycle plus that of the rider, so the mass centre stays
above the ground, and standing still the bicycle with its rider falls over as it does without. -/
theorem C146_unstable_at_rest (bp rp out : Dict ℝ) (h : combineBikeRider bp rp = .ok out) (hb : (Bench.ofDict bp).Physical)
    (hr : RiderLike rp) (hB : InPlanePD (Dict.getD bp "IBxx" 0) (Dict.getD bp "IBxz" 0) (Dict.getD bp "IBzz" 0))
    (hH : InPlanePD (Dict.getD bp "IHxx" 0) (Dict.getD bp "IHxz" 0) (Dict.getD bp "IHzz" 0)) (g : ℝ) (hg : 0 < g)
    (hz : (Bench.ofDict bp).zT < 0) (hzr : Dict.getD rp "zB" 0 ≤ 0) (d' : Dict ℝ) (c : Canon)
    (hc : benchmarkParToCanonical out = (d', .ok c)) :
    c.K0 0 0 = (Bench.ofDict bp).K0 0 0 + Dict.getD rp "mB" 0 * Dict.getD rp "zB" 0 ∧
    ∃ l : ℝ, 0 < l ∧ IsEigenvalue (toC (abA c.M c.C1 c.K0 c.K2 0 g)) (l : ℂ) := by
  have e := ofDict_combined bp rp out h
  have hp := C146_physical bp rp out h hb hr
  have hpd := (C146_mass_matrix bp rp out h hb hr hB hH).1
  have hHo : InPlanePD (Bench.ofDict out).IHxx (Bench.ofDict out).IHxz (Bench.ofDict out).IHzz := by rw [e]; exact hH
  obtain ⟨-, -, rfl⟩ := canonical_ok out d' c hc
  have hT := hp.mT
  have hTb := hb.mT
  have := hb.mR; have := hb.mH; have := hb.mF; have := hb.mB; have hrm := hr.mass
  have key : (Bench.ofDict out).mT * (Bench.ofDict out).zT =
      (Bench.ofDict bp).mT * (Bench.ofDict bp).zT + Dict.getD rp "mB" 0 * Dict.getD rp "zB" 0 := by
    unfold Bench.zT
    rw [mul_div_cancel₀ _ hT, mul_div_cancel₀ _ hTb, e]
    have hfm : (combineParts (partB bp) (partB rp)).m * (combineParts (partB bp) (partB rp)).z =
        (partB bp).m * (partB bp).z + (partB rp).m * (partB rp).z := by
      by_cases h0 : (partB bp).m + (partB rp).m = 0
      · have hbm : (0 : ℝ) ≤ (partB bp).m := hb.mB
        have hrm' : (0 : ℝ) ≤ (partB rp).m := hr.mass
        have z1 : (partB bp).m = 0 := by linarith
        have z2 : (partB rp).m = 0 := by linarith
        rw [combine_mass, h0, z1, z2]; ring
      · have := (C21_combine_mass_and_plane_partial (partB bp) (partB rp) h0).2.2
        simpa [Part.body, Body.firstMoment] using this
    simp only [Bench.withFrame]
    rw [mul_comm (combineParts (partB bp) (partB rp)).z, hfm]
    simp only [partB, Bench.ofDict]; ring
  refine ⟨key, ?_⟩
  refine C76_unstable_at_rest _ hp hpd hHo g hg ?_
  have hpos : 0 < (Bench.ofDict out).mT := lt_of_le_of_ne (by
    have := hp.mR; have := hp.mH; have := hp.mF; have := hp.mB
    unfold Bench.mT; positivity) (Ne.symm hT)
  have hposb : 0 < (Bench.ofDict bp).mT := lt_of_le_of_ne (by unfold Bench.mT; positivity) (Ne.symm hTb)
  have h1 : (Bench.ofDict bp).mT * (Bench.ofDict bp).zT < 0 := mul_neg_of_pos_of_neg hposb hz
  have h2 : Dict.getD rp "mB" 0 * Dict.getD rp "zB" 0 ≤ 0 := mul_nonpos_of_nonneg_of_nonpos hrm hzr
  by_contra hn
  push Not at hn
  have := mul_nonneg hpos.le hn
  linarith

/-- The combined frame is determined by mass, first moment and inertia about the origin. -/
theorem part_of_moments (p q : Part) (hp : p.y = 0) (hq : q.y = 0) (hm : p.m ≠ 0) (h1 : p.body.m = q.body.m)
    (h2 : p.body.firstMoment = q.body.firstMoment) (h3 : p.body.originInertia = q.body.originInertia) : p = q := by
  have e0 : p.m = q.m := h1
  have ex : p.x = q.x := by
    have := congrFun h2 0
    simp [Part.body, Body.firstMoment, ← e0, hm] at this
    exact this
  have ez : p.z = q.z := by
    have := congrFun h2 2
    simp [Part.body, Body.firstMoment, ← e0, hm] at this
    exact this
  rw [originInertia_eq, originInertia_eq] at h3
  have i00 := congrFun (congrFun h3 0) 0
  have i02 := congrFun (congrFun h3 0) 2
  have i11 := congrFun (congrFun h3 1) 1
  have i22 := congrFun (congrFun h3 2) 2
  simp [parallelAxis, Part.body, Part.tensor, hp, hq, ← e0, ← ex, ← ez] at i00 i02 i11 i22
  obtain ⟨m, x, y, z, a, b, c, d⟩ := p
  obtain ⟨m', x', y', z', a', b', c', d'⟩ := q
  simp_all

/-- **C146.** Two riders in the plane of the bicycle (or a rider and luggage) can be added in either order: the parameters are
the same, key by key. -/
theorem C146_order (bp r1 r2 b1 b2 out1 out2 : Dict ℝ) (h1 : combineBikeRider bp r1 = .ok b1)
    (h12 : combineBikeRider b1 r2 = .ok out1) (h2 : combineBikeRider bp r2 = .ok b2)
    (h21 : combineBikeRider b2 r1 = .ok out2) (hy : Dict.getD bp "yB" 0 = 0) (hy1 : Dict.getD r1 "yB" 0 = 0)
    (hy2 : Dict.getD r2 "yB" 0 = 0) (hm : 0 < Dict.getD bp "mB" 0) (hm1 : 0 ≤ Dict.getD r1 "mB" 0)
    (hm2 : 0 ≤ Dict.getD r2 "mB" 0) (k : String) : Dict.find? out1 k = Dict.find? out2 k := by
  obtain ⟨p1, o1⟩ := (C21_combine_dictionary bp r1).2 b1 h1
  obtain ⟨p12, o12⟩ := (C21_combine_dictionary b1 r2).2 out1 h12
  obtain ⟨p2, o2⟩ := (C21_combine_dictionary bp r2).2 b2 h2
  obtain ⟨p21, o21⟩ := (C21_combine_dictionary b2 r1).2 out2 h21
  have mp : 0 < (partB bp).m := hm
  have m1 : 0 ≤ (partB r1).m := hm1
  have m2 : 0 ≤ (partB r2).m := hm2
  have hc1 := combine_mass (partB bp) (partB r1)
  have hc2 := combine_mass (partB bp) (partB r2)
  have n1 : (partB bp).m + (partB r1).m ≠ 0 := by positivity
  have n2 : (partB bp).m + (partB r2).m ≠ 0 := by positivity
  have n12 : (combineParts (partB bp) (partB r1)).m + (partB r2).m ≠ 0 := by rw [hc1]; positivity
  have n21 : (combineParts (partB bp) (partB r2)).m + (partB r1).m ≠ 0 := by rw [hc2]; positivity
  obtain ⟨a1, b1', c1⟩ := C21_combine_conserves _ _ hy hy1 n1
  obtain ⟨a2, b2', c2⟩ := C21_combine_conserves _ _ hy hy2 n2
  obtain ⟨a12, b12, c12⟩ := C21_combine_conserves (combineParts (partB bp) (partB r1)) (partB r2) rfl hy2 n12
  obtain ⟨a21, b21, c21⟩ := C21_combine_conserves (combineParts (partB bp) (partB r2)) (partB r1) rfl hy1 n21
  have hparts : partB out1 = partB out2 := by
    rw [p12, p21, p1, p2]
    refine part_of_moments _ _ rfl rfl (by rw [combine_mass]; exact n12) ?_ ?_ ?_
    · rw [a12, a21, a1, a2]; ring
    · rw [b12, b21, b1', b2']; abel
    · rw [c12, c21, c1, c2]; abel
  by_cases hk : k ∈ ["mB", "xB", "yB", "zB", "IBxx", "IBxz", "IByy", "IBzz"]
  · have hs1 := combine_has b1 r2 out1 h12 k hk
    have hs2 := combine_has b2 r1 out2 h21 k hk
    rw [Dict.has_iff_exists] at hs1 hs2
    obtain ⟨x, hx⟩ := hs1
    obtain ⟨y, hy'⟩ := hs2
    have hxy : Dict.getD out1 k 0 = Dict.getD out2 k 0 := by
      simp only [partB, Part.mk.injEq] at hparts
      obtain ⟨q1, q2, q3, q4, q5, q6, q7, q8⟩ := hparts
      simp only [List.mem_cons, List.not_mem_nil, or_false] at hk
      rcases hk with rfl | rfl | rfl | rfl | rfl | rfl | rfl | rfl <;> assumption
    simp only [Dict.getD, hx, hy', Option.getD_some] at hxy
    rw [hx, hy', hxy]
  · rw [o12 k hk, o1 k hk, o21 k hk, o2 k hk]

/-- non-vacuity of C146: the example bicycle and a rider of 70 kg -/
theorem example_rider : ∃ bp rp out : Dict ℝ, combineBikeRider bp rp = .ok out ∧ (Bench.ofDict bp).Physical ∧ RiderLike rp ∧
    InPlanePD (Dict.getD bp "IBxx" 0) (Dict.getD bp "IBxz" 0) (Dict.getD bp "IBzz" 0) ∧
    InPlanePD (Dict.getD bp "IHxx" 0) (Dict.getD bp "IHxz" 0) (Dict.getD bp "IHzz" 0) ∧ (Bench.ofDict bp).zT < 0 ∧
    Dict.getD rp "zB" 0 ≤ 0 ∧ Dict.getD bp "yB" 0 = 0 ∧ Dict.getD rp "yB" 0 = 0 ∧ 0 < Dict.getD bp "mB" 0 ∧
    ∃ d' c, benchmarkParToCanonical out = (d', .ok c) := by
  let rp : Dict ℝ := [("mB", 70), ("xB", 1 / 4), ("yB", 0), ("zB", -1), ("IBxx", 8), ("IBxz", -1), ("IByy", 9), ("IBzz", 2)]
  have hexists := ((C21_combine_dictionary exampleDict rp).1).2 ⟨by
      intro k hk
      simp only [List.mem_cons, List.not_mem_nil, or_false] at hk
      rcases hk with rfl | rfl | rfl | rfl | rfl | rfl | rfl | rfl <;> simp [rp, Dict.has, Dict.find?], by
      intro k hk
      simp only [List.mem_cons, List.not_mem_nil, or_false] at hk
      rcases hk with rfl | rfl | rfl | rfl | rfl | rfl | rfl <;> simp [exampleDict, Dict.has, Dict.find?]⟩
  obtain ⟨out, hout⟩ := hexists
  have hB : InPlanePD (Dict.getD exampleDict "IBxx" 0) (Dict.getD exampleDict "IBxz" 0) (Dict.getD exampleDict "IBzz" 0) := by
    intro a b hab
    simp [exampleDict, Dict.getD, Dict.find?]
    rcases hab with h | h
    · have := sq_pos_of_ne_zero h; nlinarith [sq_nonneg (2 * a + 3 * b)]
    · have := sq_pos_of_ne_zero h; nlinarith [sq_nonneg (9 * a + 2 * b)]
  have hH : InPlanePD (Dict.getD exampleDict "IHxx" 0) (Dict.getD exampleDict "IHxz" 0) (Dict.getD exampleDict "IHzz" 0) := by
    intro a b hab
    simp [exampleDict, Dict.getD, Dict.find?]
    rcases hab with h | h
    · have := sq_pos_of_ne_zero h; nlinarith [sq_nonneg b]
    · have := sq_pos_of_ne_zero h; nlinarith [sq_nonneg a]
  refine ⟨exampleDict, rp, out, hout, ⟨?_, ?_, ?_, ?_, ?_, ?_, ?_, ?_, ?_, hB.psd, hH.psd⟩, ⟨?_, ?_⟩, hB, hH, ?_, ?_, ?_, ?_, ?_,
    _, _, canonical_of_keys out ?_⟩
  · simp [Bench.ofDict, exampleDict, Dict.getD, Dict.find?]
  · simp [Bench.ofDict, exampleDict, Dict.getD, Dict.find?]
  · simp [Bench.ofDict, exampleDict, Dict.getD, Dict.find?]
  · simp [Bench.ofDict, exampleDict, Dict.getD, Dict.find?]
  · simp [Bench.ofDict, exampleDict, Dict.getD, Dict.find?, Bench.mA] <;> norm_num
  · simp [Bench.ofDict, exampleDict, Dict.getD, Dict.find?, Bench.mT] <;> norm_num
  · simp [Bench.ofDict, exampleDict, Dict.getD, Dict.find?]
  · simp [Bench.ofDict, exampleDict, Dict.getD, Dict.find?]
  · simp [Bench.ofDict, exampleDict, Dict.getD, Dict.find?]
  · simp [rp, Dict.getD, Dict.find?]
  · intro a b
    simp [rp, Dict.getD, Dict.find?]
    nlinarith [sq_nonneg (a - b), sq_nonneg a, sq_nonneg b]
  · simp [Bench.ofDict, exampleDict, Dict.getD, Dict.find?, Bench.zT, Bench.mT] <;> norm_num
  · simp [rp, Dict.getD, Dict.find?]
  · simp [exampleDict, Dict.getD, Dict.find?]
  · simp [rp, Dict.getD, Dict.find?]
  · simp [exampleDict, Dict.getD, Dict.find?]
  · intro k hk
    by_cases hkB : k ∈ ["mB", "xB", "yB", "zB", "IBxx", "IBxz", "IByy", "IBzz"]
    · exact combine_has _ _ _ hout k hkB
    · rw [Dict.has_iff_exists, ((C21_combine_dictionary exampleDict rp).2 out hout).2 k hkB, ← Dict.has_iff_exists]
      simp only [canonKeys, canonKeysBefore, canonKeysAfter, List.cons_append, List.nil_append,
        List.mem_cons, List.not_mem_nil, or_false] at hk
      rcases hk with h | h | h | h | h | h | h | h | h | h | h | h | h | h | h | h | h | h | h | h | h | h | h <;>
        subst h <;> simp [exampleDict, Dict.has, Dict.find?]

end BP
