import Verif.Lemmas.DynamicsSolve

/-!
# More about the front wheel: the lowest point moves along the ground
-/

set_option linter.unusedSimpArgs false

namespace BP.EL

variable {m : ℕ → ℝ}

set_option maxRecDepth 10000 in
theorem dynVals (heq : ∀ s ∈ body, m s.1 = s.2.val real m) : DynVals m := by
  have key : ∀ i (h : i < 24), m (dynRows[i]'h).1 = (dynRows[i]'h).2.val real m := fun i h =>
    dyn_row heq (List.getElem_mem h)
  exact ⟨key 0 (by norm_num), key 1 (by norm_num), key 2 (by norm_num), key 3 (by norm_num), key 4 (by norm_num),
    key 5 (by norm_num), key 6 (by norm_num), key 7 (by norm_num), key 8 (by norm_num), key 9 (by norm_num),
    key 10 (by norm_num), key 11 (by norm_num), key 12 (by norm_num), key 13 (by norm_num), key 14 (by norm_num),
    key 15 (by norm_num), key 16 (by norm_num), key 17 (by norm_num), key 18 (by norm_num), key 19 (by norm_num),
    key 20 (by norm_num), key 21 (by norm_num), key 22 (by norm_num), key 23 (by norm_num)⟩

theorem dyn_flat (heq : ∀ s ∈ body, m s.1 = s.2.val real m) (h : 0 < m 35) :
    m 634 = 0 ∧ m 639 = 0 ∧ m 644 = 0 ∧ m 651 = 0 ∧ m 656 = 0 ∧ m 661 = 0 := by
  have E := rollEqs heq
  have V := rollVals heq
  have D := dynEqs heq
  have W := dynVals heq
  obtain ⟨h6, hw⟩ := roll_root heq h
  have h6' := h6.ne'
  have rt : √(m 35) = m 36 := by rw [E.e36, pow_one]
  have e35 : m 35 = m 36 ^ 2 := by rw [E.e35]; linear_combination -hw
  have a : m 28 = m 33 := V.v28.trans V.v33.symm
  have b : m 32 = m 34 := V.v32.trans V.v34.symm
  have c : m 308 = m 580 := W.v308.trans W.v580.symm
  have d : m 268 = m 579 := W.v268.trans W.v579.symm
  obtain ⟨A, hA⟩ : ∃ A, A = m 33 / m 36 := ⟨_, rfl⟩
  obtain ⟨B, hB⟩ : ∃ B, B = m 34 / m 36 := ⟨_, rfl⟩
  have e33 : m 33 = A * m 36 := by rw [hA]; field_simp
  have e34 : m 34 = B * m 36 := by rw [hB]; field_simp
  have b2 : B ^ 2 = 1 - A ^ 2 := by
    refine mul_right_cancel₀ (pow_ne_zero 2 h6') ?_
    rw [e33, e34] at hw
    linear_combination -hw
  have b3 : B ^ 3 = B * (1 - A ^ 2) := by rw [pow_succ, b2]; ring
  have b4 : B ^ 4 = (1 - A ^ 2) ^ 2 := by rw [show B ^ 4 = (B ^ 2) ^ 2 by ring, b2]
  have b5 : B ^ 5 = B * (1 - A ^ 2) ^ 2 := by rw [show B ^ 5 = B * (B ^ 2) ^ 2 by ring, b2]
  refine ⟨?_, ?_, ?_, ?_, ?_, ?_⟩
  · rw [D.e634, D.e632, D.e633, D.e631, D.e630, D.e581, E.e443, E.e434, E.e437, E.e428, E.e420, E.e416, rt, a, b, c, d,
      e33, e34, e35]
    field_simp
    push_cast
    ring_nf
    try simp only [b2, b3, b4, b5]
    ring
  · rw [D.e639, D.e637, D.e638, D.e636, D.e635, D.e581, E.e432, E.e444, E.e424, E.e439, E.e418, E.e412, rt, a, b, c, d,
      e33, e34, e35]
    field_simp
    push_cast
    ring_nf
    try simp only [b2, b3, b4, b5]
    ring
  · rw [D.e644, D.e642, D.e643, D.e641, D.e640, D.e581, E.e430, E.e446, E.e423, E.e436, E.e421, E.e411, rt, a, b, c, d,
      e33, e34, e35]
    field_simp
    push_cast
    ring_nf
    try simp only [b2, b3, b4, b5]
    ring
  · rw [D.e651, D.e649, D.e650, D.e648, D.e647, D.e581, E.e429, E.e441, E.e427, E.e435, E.e417, E.e415, rt, a, b, c, d,
      e33, e34, e35]
    field_simp
    push_cast
    ring_nf
    try simp only [b2, b3, b4, b5]
    ring
  · rw [D.e656, D.e654, D.e655, D.e653, D.e652, D.e581, E.e433, E.e445, E.e426, E.e440, E.e419, E.e414, rt, a, b, c, d,
      e33, e34, e35]
    field_simp
    push_cast
    ring_nf
    try simp only [b2, b3, b4, b5]
    ring
  · rw [D.e661, D.e659, D.e660, D.e658, D.e657, D.e581, E.e431, E.e442, E.e425, E.e438, E.e422, E.e413, rt, a, b, c, d,
      e33, e34, e35]
    field_simp
    push_cast
    ring_nf
    try simp only [b2, b3, b4, b5]
    ring

/-- How the lowest point moves in the front frame. -/
theorem dyn_lowest (heq : ∀ s ∈ body, m s.1 = s.2.val real m) (h : 0 < m 35) :
    m 582 = 2 * (m 33 ^ 2 * m 579 - m 33 * m 34 * m 580) / m 36 ^ 3 ∧
    m 584 = 2 * (m 34 ^ 2 * m 580 - m 33 * m 34 * m 579) / m 36 ^ 3 := by
  have E := rollEqs heq
  have D := dynEqs heq
  obtain ⟨h6, hw⟩ := roll_root heq h
  have h6' := h6.ne'
  have rt : √(m 35) = m 36 := by rw [E.e36, pow_one]
  refine ⟨?_, ?_⟩
  · rw [D.e582, D.e581, rt]
    field_simp
    push_cast
    linear_combination (2 * m 579) * hw
  · rw [D.e584, D.e581, rt]
    field_simp
    push_cast
    linear_combination (2 * m 580) * hw

end BP.EL
