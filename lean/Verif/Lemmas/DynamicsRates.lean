import Verif.Lemmas.DynamicsFlat
import Mathlib.Analysis.SpecialFunctions.Trigonometric.Deriv
import Mathlib.Analysis.SpecialFunctions.Sqrt

/-!
# The derivatives of the rolling conditions
-/

set_option linter.unusedSimpArgs false

namespace BP.EL

open Filter

theorem zero_deriv {f : ℝ → ℝ} {f' v t : ℝ} (h : ∀ᶠ s in nhds t, f s = 0) (hf : HasDerivAt f f' t) (hv : v = f') :
    v = 0 :=
  hv.trans ((hf.congr_of_eventuallyEq (h.mono fun _ e => e.symm)).unique (hasDerivAt_const t (0 : ℝ)))

theorem deriv_of {f g : ℝ → ℝ} {f' v t : ℝ} (h : ∀ᶠ s in nhds t, g s = f s) (hf : HasDerivAt f f' t) (hv : f' = v) :
    HasDerivAt g v t :=
  (hf.congr_of_eventuallyEq h).congr_deriv hv

/-- Derivatives of sums and products. -/
local macro "dd" : tactic => `(tactic| repeat' first
  | assumption
  | exact hasDerivAt_const _ _
  | eapply HasDerivAt.fun_add
  | eapply HasDerivAt.fun_sub
  | eapply HasDerivAt.fun_mul
  | eapply HasDerivAt.fun_neg)

/-- The dependent accelerations. -/
theorem roll_rates {M : ℝ → ℕ → ℝ} {t : ℝ} (a : Nine ℝ)
    (hm : ∀ᶠ s in nhds t, Agrees (M s) ∧ 0 < M s 35 ∧ M s 494 ≠ 0)
    (hp : ∀ l ∈ [5049, 5050, 5051, 5082, 5083], ∀ s, M s l = M t l)
    (q3 : HasDerivAt (fun s => M s 5033) (M t 5089) t) (q4 : HasDerivAt (fun s => M s 5034) (M t 5040) t)
    (q5 : HasDerivAt (fun s => M s 5035) (M t 5092) t) (q7 : HasDerivAt (fun s => M s 5037) (M t 5042) t)
    (u1 : HasDerivAt (fun s => M s 5085) a.n1 t) (u2 : HasDerivAt (fun s => M s 5087) a.n2 t)
    (u3 : HasDerivAt (fun s => M s 5089) a.n3 t) (u4 : HasDerivAt (fun s => M s 5040) a.n4 t)
    (u5 : HasDerivAt (fun s => M s 5092) a.n5 t) (u6 : HasDerivAt (fun s => M s 5041) a.n6 t)
    (u7 : HasDerivAt (fun s => M s 5042) a.n7 t) (u8 : HasDerivAt (fun s => M s 5096) a.n8 t) :
    Dependent (M t) a (M t 553) (M t 568) (M t 620) (M t 628) (M t 664) := by
  obtain ⟨ht, h35, h494⟩ := hm.self_of_nhds
  have V := rollVals ht
  have W := dynVals ht
  obtain ⟨z0, z1, z2, z3, z4, z5⟩ := roll_flat ht h35
  obtain ⟨y0, y1, y2, y3, y4, y5⟩ := dyn_flat ht h35
  obtain ⟨c3, c4, c5, c6, c9, c10⟩ := roll_trig ht
  have g1 : HasDerivAt (fun s => M s 1) (-M t 2 * M t 5089) t := by
    refine (q3.cos.congr_of_eventuallyEq (hm.mono fun s h => (rollVals h.1).v1)).congr_deriv ?_
    rw [V.v2]
  have g2 : HasDerivAt (fun s => M s 2) (M t 1 * M t 5089) t := by
    refine (q3.sin.congr_of_eventuallyEq (hm.mono fun s h => (rollVals h.1).v2)).congr_deriv ?_
    rw [V.v1]
  have g3 : HasDerivAt (fun s => M s 3) (-M t 4 * M t 5040) t := by
    refine (q4.cos.congr_of_eventuallyEq (hm.mono fun s h => (roll_trig h.1).1)).congr_deriv ?_
    rw [c4]
  have g4 : HasDerivAt (fun s => M s 4) (M t 3 * M t 5040) t := by
    refine (q4.sin.congr_of_eventuallyEq (hm.mono fun s h => (roll_trig h.1).2.1)).congr_deriv ?_
    rw [c3]
  have g5 : HasDerivAt (fun s => M s 5) (-M t 6 * M t 5092) t := by
    refine (q5.cos.congr_of_eventuallyEq (hm.mono fun s h => (roll_trig h.1).2.2.1)).congr_deriv ?_
    rw [c6]
  have g6 : HasDerivAt (fun s => M s 6) (M t 5 * M t 5092) t := by
    refine (q5.sin.congr_of_eventuallyEq (hm.mono fun s h => (roll_trig h.1).2.2.2.1)).congr_deriv ?_
    rw [c5]
  have g9 : HasDerivAt (fun s => M s 9) (-M t 10 * M t 5042) t := by
    refine (q7.cos.congr_of_eventuallyEq (hm.mono fun s h => (roll_trig h.1).2.2.2.2.1)).congr_deriv ?_
    rw [c10]
  have g10 : HasDerivAt (fun s => M s 10) (M t 9 * M t 5042) t := by
    refine (q7.sin.congr_of_eventuallyEq (hm.mono fun s h => (roll_trig h.1).2.2.2.2.2)).congr_deriv ?_
    rw [c9]
  have g33 : HasDerivAt (fun s => M s 33) (M t 580) t := by
    apply deriv_of (f := fun s => M s 4 * M s 10 - M s 3 * M s 6 * M s 9) (hm.mono fun s h => (rollVals h.1).v33)
    · dd
    · rw [W.v580]; ring
  have g34 : HasDerivAt (fun s => M s 34) (M t 579) t := by
    apply deriv_of (f := fun s => M s 3 * M s 5) (hm.mono fun s h => (rollVals h.1).v34)
    · dd
    · rw [W.v579]; ring
  obtain ⟨h6, hw⟩ := roll_root ht h35
  have h6' := h6.ne'
  have rt : √(M t 35) = M t 36 := by rw [(rollEqs ht).e36, pow_one]
  have g35 : HasDerivAt (fun s => M s 35) (2 * M t 33 * M t 580 + 2 * M t 34 * M t 579) t := by
    apply deriv_of (f := fun s => M s 33 * M s 33 + M s 34 * M s 34)
      (hm.mono fun s h => by rw [(rollEqs h.1).e35]; ring)
    · dd
    · ring
  have g36 : HasDerivAt (fun s => M s 36) ((M t 33 * M t 580 + M t 34 * M t 579) / M t 36) t := by
    refine deriv_of (hm.mono fun s h => by rw [(rollEqs h.1).e36, pow_one]) (g35.sqrt h35.ne') ?_
    rw [rt]; field_simp
  obtain ⟨l1, l2⟩ := dyn_lowest ht h35
  have g39 : HasDerivAt (fun s => M s 39) (M t 5082 * M t 584 / 2) t := by
    refine deriv_of (f := fun s => M t 5082 * (M s 33 / M s 36))
      (hm.mono fun s h => by rw [(rollEqs h.1).e39, (rollEqs h.1).e37, hp 5082 (by simp) s])
      ((g33.fun_div g36 h6').const_mul _) ?_
    rw [l2]
    field_simp
    linear_combination M t 5082 * M t 580 * hw
  have g40 : HasDerivAt (fun s => M s 40) (M t 5082 * M t 582 / 2) t := by
    refine deriv_of (f := fun s => M t 5082 * (M s 34 / M s 36))
      (hm.mono fun s h => by rw [(rollEqs h.1).e40, (rollEqs h.1).e38, hp 5082 (by simp) s])
      ((g34.fun_div g36 h6').const_mul _) ?_
    rw [l1]
    field_simp
    linear_combination M t 5082 * M t 579 * hw
  have hrr := hp 5083 (by simp)
  have hd1 := hp 5049 (by simp)
  have hd2 := hp 5050 (by simp)
  have hd3 := hp 5051 (by simp)
  obtain ⟨f1, f2, f3⟩ := roll_height ht h35
  refine roll_unique ht h494 a _ _ _ _ _ ?_ ?_ ?_ ?_ ?_
  · apply zero_deriv (f := fun s => M s 1 * M s 5085 + M s 2 * M s 5087 + M t 5083 * (M s 5092 + M s 5041))
    · refine hm.mono fun s h => ?_
      have e := (roll_solved h.1 h.2.2).1
      rw [(rollEqs h.1).e5094, hrr] at e
      exact e
    · dd
    · rw [W.v553]; ring
  · apply zero_deriv (f := fun s => M s 1 * M s 5087 - M s 2 * M s 5085)
      (hm.mono fun s h => (roll_solved h.1 h.2.2).2.1)
    · dd
    · rw [W.v568]; ring
  · apply zero_deriv (f := fun s => M s 1 * M s 5085 + M s 2 * M s 5087 +
        (M s 4 * (M s 5 * (M t 5050 + M s 40) - M s 6 * (M t 5049 + M s 9 * (M t 5051 + M s 39)) - M t 5083) -
          M s 3 * (M s 10 * (M t 5051 + M s 39))) * M s 5089 +
        (M s 5 * (M t 5050 + M s 40) - M s 6 * (M t 5049 + M s 9 * (M t 5051 + M s 39))) * M s 5092 +
        (M s 5 * M s 9 * M s 40 - M s 6 * M s 39) * M s 5096 - M s 5 * M s 10 * (M t 5051 + M s 39) * M s 5042)
    · refine hm.mono fun s h => ?_
      have e := (roll_solved h.1 h.2.2).2.2.1
      have V := rollVals h.1
      rw [(rollEqs h.1).e5095, V.v466, V.v464, V.v463, V.v467, hrr, hd1, hd2, hd3] at e
      exact e
    · dd
    · rw [W.v620, V.v466, V.v464, V.v463, V.v467]; push_cast; ring
  · apply zero_deriv (f := fun s => M s 1 * M s 5087 - M s 2 * M s 5085 +
        (M s 5 * (M t 5049 + M s 9 * (M t 5051 + M s 39)) + M s 6 * (M t 5050 + M s 40)) * M s 5089 +
        (-(M s 3 * (M s 5 * (M t 5050 + M s 40) - M s 6 * (M t 5049 + M s 9 * (M t 5051 + M s 39)) - M t 5083)) -
          M s 4 * (M s 10 * (M t 5051 + M s 39))) * M s 5040 +
        (M s 4 * (M s 6 * (M t 5050 + M s 40) + M s 5 * (M t 5049 + M s 9 * (M t 5051 + M s 39)))) * M s 5092 +
        (M s 3 * M s 10 * M s 40 + M s 4 * (M s 6 * M s 9 * M s 40 + M s 5 * M s 39)) * M s 5096 +
        (M s 3 * M s 9 - M s 4 * M s 6 * M s 10) * (M t 5051 + M s 39) * M s 5042)
    · refine hm.mono fun s h => ?_
      have e := (roll_solved h.1 h.2.2).2.2.2.1
      have V := rollVals h.1
      rw [(rollEqs h.1).e5095, (rollEqs h.1).e5091, V.v473, V.v472, V.v471, V.v470, V.v474, hrr, hd1, hd2, hd3] at e
      exact e
    · dd
    · rw [W.v628, V.v473, V.v472, V.v471, V.v470, V.v474]; push_cast; ring
  · apply zero_deriv (f := fun s =>
        (M s 3 * (M s 10 * (M t 5051 + M s 39)) - M s 4 * (M s 5 * (M t 5050 + M s 40) -
          M s 6 * (M t 5049 + M s 9 * (M t 5051 + M s 39)) - M t 5083)) * M s 5040 +
        -(M s 3 * (M s 6 * (M t 5050 + M s 40) + M s 5 * (M t 5049 + M s 9 * (M t 5051 + M s 39)))) * M s 5092 +
        (M s 4 * M s 9 + M s 3 * M s 6 * M s 10) * (M t 5051 + M s 39) * M s 5042)
    · refine hm.mono fun s h => ?_
      have e := (roll_solved h.1 h.2.2).2.2.2.2
      obtain ⟨f1, f2, f3⟩ := roll_height h.1 h.2.1
      rw [(rollEqs h.1).e5095, (rollEqs h.1).e5091, f1, f2, f3, hrr, hd1, hd2, hd3] at e
      exact e
    · dd
    · rw [W.v664, f1, f2, f3]
      simp only [z0, z1, z2, z3, z4, z5, y0, y1, y2, y3, y4, y5]
      push_cast
      ring

end BP.EL
