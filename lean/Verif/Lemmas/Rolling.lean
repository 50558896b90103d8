import Verif.Lemmas.RollingChecks
import Verif.Props.Invariance

/-!
# The rolling conditions in the cells of `eval_linear`
-/

set_option linter.unusedSimpArgs false

namespace BP.EL

open BP.Spec

variable {m : ℕ → ℝ}

/-- The table is right. -/
theorem roll_cells (heq : ∀ s ∈ body, m s.1 = s.2.val real m) :
    Pyth (tvars rollPrimes m (m 5033)) roll.angles ∧ ∀ l, Nat.testBit rateMarks l = true →
      ∀ q, jval rollTable l = some q → m l = qeval (tvars rollPrimes m (m 5033)) q := by
  have h := roll_setup
  simp only [Bool.and_eq_true] at h
  obtain ⟨hp, ha, hi⟩ := h
  obtain ⟨x, ex⟩ : ∃ x, x = tvars rollPrimes m (m 5033) := ⟨_, rfl⟩
  rw [← ex]
  have x2 : x 2 = Real.cos (m 5033) := by rw [ex]; simp [tvars]
  have x3 : x 3 = Real.sin (m 5033) := by rw [ex]; simp [tvars]
  have x7 : x 7 = (m 494)⁻¹ := by rw [ex]; simp [tvars]
  have hps : ∀ t ∈ rollPrimes, mono x t.1 = m t.2 := by
    intro t ht
    have h := List.all_eq_true.mp hp t ht
    simp only [Bool.and_eq_true, Nat.beq_eq] at h
    obtain ⟨hpr, n2, n3, n7⟩ := primeOther_prime h.1
    rw [mono_prime _ hpr, ex]
    simp [tvars, n2, n3, n7, h.2]
  have hat : ∀ p l, primeOf rollPrimes p l = true → qeval x (qvar p) = m l := by
    intro p l h
    simp only [primeOf, Bool.and_eq_true, Nat.beq_eq, List.any_eq_true] at h
    obtain ⟨t, ht, rfl, rfl⟩ := h
    simp [qeval, qvar, hps t ht]
  have hpyth : Pyth x roll.angles := by
    intro a ha'
    have h := List.all_eq_true.mp ha a ha'
    simp only [angleOk, Bool.or_eq_true, Bool.and_eq_true, Nat.beq_eq, List.any_eq_true] at h
    rw [mono_mul, mono_mul]
    rcases h with ⟨e1, e2⟩ | ⟨t, ht, h⟩
    · rw [e1, e2, mono_prime _ Nat.prime_two, mono_prime _ Nat.prime_three, x2, x3]
      linear_combination Real.sin_sq_add_cos_sq (m 5033)
    · simp only [angleStmts, primeOf, Bool.and_eq_true, Nat.beq_eq, List.any_eq_true] at h
      obtain ⟨⟨⟨t1, h1, a1, b1⟩, ⟨t2, h2, a2, b2⟩⟩, ⟨sc, hsc, hc⟩, ⟨ss, hss, hs⟩⟩ := h
      rw [← a1, ← a2, hps t1 h1, hps t2 h2, b1, b2]
      have ec : m t.2.1 = Real.cos (m t.1) := by
        have e := heq sc hsc
        unfold isCos at hc
        split at hc
        · simp only [Bool.and_eq_true, Nat.beq_eq] at hc
          obtain ⟨rfl, rfl⟩ := hc
          simpa [E.val, real] using e
        · cases hc
      have es : m t.2.2 = Real.sin (m t.1) := by
        have e := heq ss hss
        unfold isSin at hs
        split at hs
        · simp only [Bool.and_eq_true, Nat.beq_eq] at hs
          obtain ⟨rfl, rfl⟩ := hs
          simpa [E.val, real] using e
        · cases hs
      rw [ec, es]
      linear_combination Real.sin_sq_add_cos_sq (m t.1)
  refine ⟨hpyth, run_pred (fun l => ∀ q, jval rollTable l = some q → m l = qeval x q) rateBody inputs rateMarks
    jac_rate_defined ?_ ?_⟩
  · intro s hs d hd ih q hq
    have h := List.all_eq_true.mp roll_ok s hs
    unfold rollOk at h
    unfold jval at hq
    split at h
    · rename_i e; rw [e] at hq; cases hq
    · rename_i p e
      rw [e] at hq
      simp only [Option.some.injEq, JEnt.poly] at hq
      subst hq
      exact (hat p _ h).symm
    · rename_i q' k e
      rw [e] at hq
      simp only [Option.some.injEq, JEnt.poly] at hq
      subst hq
      obtain ⟨p', h1, h2⟩ := qeqO_some h x
      rw [heq s (List.mem_of_mem_take hs), ← h2]
      exact tpoly_sound hpyth x2.symm x3.symm d (fun _ => x7) ih s.2 hd _ h1
    · cases h
  · intro l hl q hq
    have hl' := (inputs_iff l).mp hl
    have h := List.all_eq_true.mp hi l (by rw [List.mem_range'_1]; omega)
    unfold rollInput at h
    unfold jval at hq
    split at h
    · rename_i e; rw [e] at hq; cases hq
    · rename_i p e
      rw [e] at hq
      simp only [Option.some.injEq, JEnt.poly] at hq
      subst hq
      exact (hat p _ h).symm
    · cases h

/-- The rows. -/
theorem roll_row (heq : ∀ s ∈ body, m s.1 = s.2.val real m) {s : ℕ × E} (hs : s ∈ rollRows) :
    m s.1 = s.2.val real m := by
  obtain ⟨hpyth, h⟩ := roll_cells heq
  have hr := List.all_eq_true.mp roll_rows s hs
  simp only [rollRow, Bool.and_eq_true] at hr
  obtain ⟨⟨h1, h2⟩, h3⟩ := hr
  obtain ⟨x, ex⟩ : ∃ x, x = tvars rollPrimes m (m 5033) := ⟨_, rfl⟩
  have x2 : x 2 = Real.cos (m 5033) := by rw [ex]; simp [tvars]
  have x3 : x 3 = Real.sin (m 5033) := by rw [ex]; simp [tvars]
  have x7 : x 7 = (m 494)⁻¹ := by rw [ex]; simp [tvars]
  rw [← ex] at hpyth h
  unfold qeqOO at h3
  split at h3
  · cases h3
  · rename_i q hq
    obtain ⟨p', e1, e2⟩ := qeqO_some h3 x
    rw [h _ h2 q hq, ← e2]
    exact (tpoly_sound hpyth x2.symm x3.symm rateMarks (fun _ => x7) h s.2 h1 _ e1).symm

/-- The coefficients of the rolling conditions. -/
structure RollVals (m : ℕ → ℝ) : Prop where
  v1 : m 1 = Real.cos (m 5033)
  v2 : m 2 = Real.sin (m 5033)
  v28 : m 28 = m 4 * m 10 - m 3 * m 6 * m 9
  v33 : m 33 = m 4 * m 10 - m 3 * m 6 * m 9
  v32 : m 32 = m 3 * m 5
  v34 : m 34 = m 3 * m 5
  v30 : m 30 = m 3 * m 6 * m 10 + m 4 * m 9
  v23 : m 23 = m 5 * m 9
  v24 : m 24 = m 6 * m 9
  v25 : m 25 = m 5 * m 10
  v26 : m 26 = m 6 * m 10
  v27 : m 27 = m 3 * m 10 + m 4 * m 6 * m 9
  v29 : m 29 = m 3 * m 9 - m 4 * m 6 * m 10
  v31 : m 31 = m 4 * m 5
  v224 : m 224 = 0
  v225 : m 225 = m 5083
  v227 : m 227 = m 5083
  v228 : m 228 = 0
  v456 : m 456 = -m 2
  v457 : m 457 = m 1
  v458 : m 458 = 0
  v459 : m 459 = 0
  v460 : m 460 = 0
  v461 : m 461 = m 1
  v462 : m 462 = m 2
  v463 : m 463 = m 5 * m 9 * m 40 - m 6 * m 39
  v464 : m 464 = m 5 * (m 5050 + m 40) - m 6 * (m 5049 + m 9 * (m 5051 + m 39))
  v465 : m 465 = 0
  v466 : m 466 = m 4 * (m 5 * (m 5050 + m 40) - m 6 * (m 5049 + m 9 * (m 5051 + m 39)) - m 5083) -
    m 3 * (m 10 * (m 5051 + m 39))
  v467 : m 467 = m 5 * m 10 * (m 5051 + m 39)
  v468 : m 468 = -m 2
  v469 : m 469 = m 1
  v470 : m 470 = m 3 * m 10 * m 40 + m 4 * (m 6 * m 9 * m 40 + m 5 * m 39)
  v471 : m 471 = m 4 * (m 6 * (m 5050 + m 40) + m 5 * (m 5049 + m 9 * (m 5051 + m 39)))
  v472 : m 472 = -(m 3 * (m 5 * (m 5050 + m 40) - m 6 * (m 5049 + m 9 * (m 5051 + m 39)) - m 5083)) -
    m 4 * (m 10 * (m 5051 + m 39))
  v473 : m 473 = m 5 * (m 5049 + m 9 * (m 5051 + m 39)) + m 6 * (m 5050 + m 40)
  v474 : m 474 = (m 3 * m 9 - m 4 * m 6 * m 10) * (m 5051 + m 39)

theorem rollVals (heq : ∀ s ∈ body, m s.1 = s.2.val real m) : RollVals m := by
  have key : ∀ i (h : i < 37), m (rollRows[i]'h).1 = (rollRows[i]'h).2.val real m := fun i h =>
    roll_row heq (List.getElem_mem h)
  have z : ((0 : ℕ) : ℝ) = 0 := Nat.cast_zero
  exact ⟨key 0 (by norm_num), key 1 (by norm_num), key 2 (by norm_num), key 3 (by norm_num), key 4 (by norm_num),
    key 5 (by norm_num), key 6 (by norm_num), key 7 (by norm_num), key 8 (by norm_num), key 9 (by norm_num),
    key 10 (by norm_num), key 11 (by norm_num), key 12 (by norm_num), key 13 (by norm_num),
    (key 14 (by norm_num)).trans z, key 15 (by norm_num), key 16 (by norm_num), (key 17 (by norm_num)).trans z,
    key 18 (by norm_num), key 19 (by norm_num), (key 20 (by norm_num)).trans z, (key 21 (by norm_num)).trans z,
    (key 22 (by norm_num)).trans z, key 23 (by norm_num), key 24 (by norm_num), key 25 (by norm_num),
    key 26 (by norm_num), (key 27 (by norm_num)).trans z, key 28 (by norm_num), key 29 (by norm_num),
    key 30 (by norm_num), key 31 (by norm_num), key 32 (by norm_num), key 33 (by norm_num), key 34 (by norm_num),
    key 35 (by norm_num), key 36 (by norm_num)⟩

/-- The five rolling conditions hold. -/
theorem roll_solved (heq : ∀ s ∈ body, m s.1 = s.2.val real m) (h : m 494 ≠ 0) :
    m 1 * m 5085 + m 2 * m 5087 + m 5083 * (m 5092 + m 5094) = 0 ∧
    m 1 * m 5087 - m 2 * m 5085 = 0 ∧
    m 1 * m 5085 + m 2 * m 5087 + m 466 * m 5089 + m 464 * m 5092 + m 463 * m 5096 - m 467 * m 5095 = 0 ∧
    m 1 * m 5087 - m 2 * m 5085 + m 473 * m 5089 + m 472 * m 5091 + m 471 * m 5092 + m 470 * m 5096 + m 474 * m 5095
      = 0 ∧
    m 475 * m 5091 + m 476 * m 5092 + m 477 * m 5095 = 0 := by
  have E := rollEqs heq
  have V := rollVals heq
  obtain ⟨v1, v2, v28, v33, v32, v34, v30, v23, v24, v25, v26, v27, v29, v31, v224, v225, v227, v228, v456, v457, v458,
    v459, v460, v461, v462, -, -, v465, -, -, v468, v469, -, -, -, -, -⟩ := V
  have pyth : m 1 * m 1 + m 2 * m 2 = 1 := by
    rw [v1, v2]; linear_combination Real.sin_sq_add_cos_sq (m 5033)
  have e487 : m 487 = 0 := by rw [E.e487, v458, v228]; ring
  have e482 : m 482 = 0 := by rw [E.e482, v458, v228]; ring
  have e478 : m 478 = 1 := by rw [E.e478, v457, v456, ← pyth]; ring
  have e492 : m 492 = 0 := by rw [E.e492, v458, v459]; ring
  have e490 : m 490 = -(m 5083 * m 1) := by rw [E.e490, v459, v225, v457]; ring
  have e485 : m 485 = m 5083 * m 2 := by rw [E.e485, v459, v225, v456]; ring
  have e494 : m 494 = -(m 476 * m 480) := by rw [E.e494, e482, e478, e487]; ring
  have h6 : m 476 ≠ 0 := by rintro e; rw [e494, e] at h; simp at h
  have h0 : m 480 ≠ 0 := by rintro e; rw [e494, e] at h; simp at h
  have e533 : m 533 = m 480 * (m 5083 * m 1) := by rw [E.e533, e487, e492, e490]; ring
  have e534 : m 534 = -(m 480 * (m 5083 * m 2)) := by rw [E.e534, e482, e492, e485]; ring
  have e535 : m 535 = m 481 - m 5083 * m 470 := by
    rw [E.e535, e478, e490, e485, E.e489, E.e484, v461, v462, v468, v469]
    linear_combination (-(m 5083 * m 470)) * pyth
  have e536 : m 536 = m 480 := by rw [E.e536, e478, e487, e482]; ring
  have e504 : m 504 = -(m 1 * m 476 * m 480) := by
    rw [E.e504, E.e498, E.e499, E.e501, E.e495, E.e496, E.e480, v457, v458]; ring
  have e509 : m 509 = m 2 * m 476 * m 480 := by
    rw [E.e509, E.e507, E.e499, E.e501, E.e505, E.e496, E.e480, v456, v458]; ring
  have e511 : m 511 = m 476 * m 470 := by
    rw [E.e511, E.e502, E.e507, E.e496, E.e510, E.e498, E.e508, v456, v457, v461, v462, v468, v469]
    linear_combination (m 476 * m 470) * pyth
  have e512 : m 512 = -(m 476 * m 473) := by
    rw [E.e512, E.e495, E.e508, E.e499, E.e510, E.e502, E.e505, v456, v457, v458, v461, v462, v468, v469]
    linear_combination (-(m 476 * m 473)) * pyth
  have e527 : m 527 = m 476 * m 473 := by
    rw [E.e527, e478, e487, e482, E.e499]; ring
  have e532 : m 532 = m 466 * m 476 := by rw [E.e532, e478, e487, e482, E.e529]; ring
  have e537 : m 537 = m 479 + m 5083 * m 473 := by
    rw [E.e537, e478, e485, e487, e492, e482, e490, E.e486, E.e491, v461, v462, v468, v469]
    linear_combination (m 5083 * m 473) * pyth
  have e538 : m 538 = m 475 * m 5083 * m 1 / m 476 := by
    rw [E.e538, v460, v465, v224, e533, e487, e494]; field_simp; ring
  have e539 : m 539 = m 5083 * m 1 := by rw [E.e539, v227, e504, e494]; field_simp
  have e540 : m 540 = -(m 477 * m 5083 * m 1) / m 476 := by
    rw [E.e540, e533, e487, e494]; field_simp; ring
  have e541 : m 541 = -(m 475 * m 5083 * m 2) / m 476 := by
    rw [E.e541, v460, v465, v224, e534, e482, e494]; field_simp; ring
  have e542 : m 542 = -(m 5083 * m 2) := by rw [E.e542, v227, e509, e494]; field_simp
  have e543 : m 543 = m 477 * m 5083 * m 2 / m 476 := by
    rw [E.e543, e534, e482, e494]; field_simp; ring
  have u5 : m 5092 = -(m 475 * m 5091 + m 477 * m 5095) / m 476 := by
    rw [E.e5092, E.e5091, E.e5095, E.e547, E.e548, e536, e494]; field_simp; ring
  have u1 : m 5085 = -(m 1 * m 5083 * (m 5092 + m 5094)) := by
    rw [u5, E.e5085, E.e5091, E.e5094, E.e5095, e538, e539, e540]; field_simp; ring
  have u2 : m 5087 = -(m 2 * m 5083 * (m 5092 + m 5094)) := by
    rw [u5, E.e5087, E.e5091, E.e5094, E.e5095, e541, e542, e543]; field_simp; ring
  have u6 : m 5094 = m 5041 := E.e5094
  have r1 : m 1 * m 5085 + m 2 * m 5087 + m 5083 * (m 5092 + m 5094) = 0 := by
    rw [u1, u2]; linear_combination (-(m 5083 * (m 5092 + m 5094))) * pyth
  have r2 : m 1 * m 5087 - m 2 * m 5085 = 0 := by rw [u1, u2]; ring
  have u3 : m 480 * m 5089 = m 470 * (m 5083 * (m 5092 + m 5094) - m 464 * m 5092 + m 467 * m 5095) +
      m 463 * (m 472 * m 5091 + m 471 * m 5092 + m 474 * m 5095) := by
    rw [u5, E.e5089, E.e5091, E.e5094, E.e5095, E.e544, E.e545, E.e546, v460, v465, v224, v227, e511, e535, E.e528,
      E.e496, E.e481, e478, e494]
    field_simp
    ring
  have u8 : m 480 * m 5096 = -(m 466 * (m 472 * m 5091 + m 471 * m 5092 + m 474 * m 5095)) -
      m 473 * (m 5083 * (m 5092 + m 5094) - m 464 * m 5092 + m 467 * m 5095) := by
    rw [u5, E.e5096, E.e5091, E.e5094, E.e5095, E.e549, E.e550, E.e551, v460, v465, v224, v227, e512, e537, e527, e532,
      E.e479, e494]
    field_simp
    ring
  refine ⟨r1, r2, mul_left_cancel₀ h0 ?_, mul_left_cancel₀ h0 ?_, ?_⟩
  · rw [E.e480] at u3 u8 ⊢
    linear_combination (m 466 * m 470 - m 463 * m 473) * r1 + m 466 * u3 + m 463 * u8
  · rw [E.e480] at u3 u8 ⊢
    linear_combination (m 466 * m 470 - m 463 * m 473) * r2 + m 473 * u3 + m 470 * u8
  · rw [u5]; field_simp; ring

theorem roll_root (heq : ∀ s ∈ body, m s.1 = s.2.val real m) (h : 0 < m 35) :
    0 < m 36 ∧ m 36 * m 36 = m 33 * m 33 + m 34 * m 34 := by
  have E := rollEqs heq
  rw [E.e36, pow_one]
  refine ⟨Real.sqrt_pos.mpr h, ?_⟩
  rw [Real.mul_self_sqrt h.le, E.e35]; ring

/-- The height of the front wheel does not depend on the place of its lowest point. -/
theorem roll_flat (heq : ∀ s ∈ body, m s.1 = s.2.val real m) (h : 0 < m 35) :
    m 450 = 0 ∧ m 451 = 0 ∧ m 452 = 0 ∧ m 453 = 0 ∧ m 454 = 0 ∧ m 455 = 0 := by
  have E := rollEqs heq
  have V := rollVals heq
  obtain ⟨h6, hw⟩ := roll_root heq h
  have h6' := h6.ne'
  have hw2 : m 36 ^ 2 = m 33 ^ 2 + m 34 ^ 2 := by linear_combination hw
  have rt : √(m 35) ^ 1 = m 36 := E.e36.symm
  have a : m 28 = m 33 := V.v28.trans V.v33.symm
  have b : m 32 = m 34 := V.v32.trans V.v34.symm
  refine ⟨?_, ?_, ?_, ?_, ?_, ?_⟩
  · rw [E.e450, E.e441, E.e429, E.e435, E.e427, E.e417, E.e415, rt, a, b]
    field_simp
    rw [hw2]
    ring
  · rw [E.e451, E.e430, E.e446, E.e423, E.e436, E.e421, E.e411, rt, a, b]
    field_simp
    rw [hw2]
    ring
  · rw [E.e452, E.e442, E.e431, E.e438, E.e425, E.e422, E.e413, rt, a, b]
    field_simp
    rw [hw2]
    ring
  · rw [E.e453, E.e432, E.e444, E.e424, E.e439, E.e418, E.e412, rt, a, b]
    field_simp
    rw [hw2]
    ring
  · rw [E.e454, E.e433, E.e445, E.e426, E.e440, E.e419, E.e414, rt, a, b]
    field_simp
    rw [hw2]
    ring
  · rw [E.e455, E.e443, E.e434, E.e437, E.e428, E.e420, E.e416, rt, a, b]
    field_simp
    rw [hw2]
    ring

/-- Cosines and sines. -/
theorem roll_trig (heq : ∀ s ∈ body, m s.1 = s.2.val real m) :
    m 3 = Real.cos (m 5034) ∧ m 4 = Real.sin (m 5034) ∧ m 5 = Real.cos (m 5035) ∧ m 6 = Real.sin (m 5035) ∧
    m 9 = Real.cos (m 5037) ∧ m 10 = Real.sin (m 5037) :=
  ⟨heq (3, .cos (.z 5034)) (rate_mem (by decide +kernel)), heq (4, .sin (.z 5034)) (rate_mem (by decide +kernel)),
    heq (5, .cos (.z 5035)) (rate_mem (by decide +kernel)), heq (6, .sin (.z 5035)) (rate_mem (by decide +kernel)),
    heq (9, .cos (.z 5037)) (rate_mem (by decide +kernel)), heq (10, .sin (.z 5037)) (rate_mem (by decide +kernel))⟩

/-- The condition that keeps the front wheel on the ground. -/
theorem roll_height (heq : ∀ s ∈ body, m s.1 = s.2.val real m) (h : 0 < m 35) :
    m 475 = m 3 * (m 10 * (m 5051 + m 39)) - m 4 * (m 5 * (m 5050 + m 40) - m 6 * (m 5049 + m 9 * (m 5051 + m 39)) -
      m 5083) ∧
    m 476 = -(m 3 * (m 6 * (m 5050 + m 40) + m 5 * (m 5049 + m 9 * (m 5051 + m 39)))) ∧
    m 477 = (m 4 * m 9 + m 3 * m 6 * m 10) * (m 5051 + m 39) := by
  have E := rollEqs heq
  have V := rollVals heq
  obtain ⟨h0, h1, h2, h3, h4, h5⟩ := roll_flat heq h
  refine ⟨?_, ?_, ?_⟩
  · rw [E.e475, h1, h3, h5, E.e447, E.e449, E.e448, V.v24]; ring
  · rw [E.e476, h0, h1, h2, h3, h4, h5, E.e448, E.e449]; ring
  · rw [E.e477, h1, h2, h3, h4, E.e449]; ring

/-- The lowest point of the front wheel. -/
theorem roll_lowest (heq : ∀ s ∈ body, m s.1 = s.2.val real m) (h : 0 < m 35) :
    m 39 * m 36 = m 5082 * m 33 ∧ m 40 * m 36 = m 5082 * m 34 ∧
    m 4 * m 10 * m 40 - m 3 * (m 6 * m 9 * m 40 + m 5 * m 39) = 0 := by
  have E := rollEqs heq
  have V := rollVals heq
  obtain ⟨h6, hw⟩ := roll_root heq h
  have h6' := h6.ne'
  have e1 : m 39 * m 36 = m 5082 * m 33 := by rw [E.e39, E.e37]; field_simp
  have e2 : m 40 * m 36 = m 5082 * m 34 := by rw [E.e40, E.e38]; field_simp
  refine ⟨e1, e2, mul_right_cancel₀ h6' ?_⟩
  have e3 : m 33 = m 4 * m 10 - m 3 * m 6 * m 9 := V.v33
  have e4 : m 34 = m 3 * m 5 := V.v34
  rw [e3] at e1; rw [e4] at e2
  linear_combination (m 4 * m 10 - m 3 * m 6 * m 9) * e2 - m 3 * m 5 * e1

end BP.EL
