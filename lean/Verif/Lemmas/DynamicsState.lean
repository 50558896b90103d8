import Verif.Lemmas.DynamicsRolling

/-!
# The cells of a state, and the accelerations during a ride
-/

set_option linter.unusedSimpArgs false

namespace BP.EL

open BP.Spec Matrix

section

variable (lam : ℝ) (junk : ℕ → ℝ) (x : Fin 13 → ℝ) (r : Fin 4 → ℝ)

theorem cell_q (p : Fin 36 → ℝ) (i : Fin 9) (h : 2 ≤ i.1) : cellsAt lam junk p x r (5031 + i) = x (Fin.castAdd 4 i) :=
  cellsAt_angle lam junk p x r i h

theorem cell_u (p : Fin 36 → ℝ) (i : Fin 4) : cellsAt lam junk p x r (5040 + i) = x (Fin.natAdd 9 i) := by
  rw [cellsAt_keep _ _ _ _ _ _ ((inputs_iff _).mpr ⟨by omega, by omega⟩), start_u]; rfl

theorem cell_r (p : Fin 36 → ℝ) (i : Fin 4) : cellsAt lam junk p x r (5044 + i) = r i := by
  rw [cellsAt_keep _ _ _ _ _ _ ((inputs_iff _).mpr ⟨by omega, by omega⟩), start_r]

theorem cell_p (p : Fin 36 → ℝ) (i : Fin 36) : cellsAt lam junk p x r (5048 + i) = p i := by
  rw [cellsAt_keep _ _ _ _ _ _ ((inputs_iff _).mpr ⟨by omega, by omega⟩), start_p]

theorem cell_lam (p : Fin 36 → ℝ) : cellsAt lam junk p x r 5084 = lam := by
  rw [cellsAt_keep _ _ _ _ _ _ ((inputs_iff _).mpr ⟨by omega, by omega⟩), start_lam]

end

section

variable {m : ℕ → ℝ}

theorem more_trig (heq : Agrees m) : (m 1 = Real.cos (m 5033) ∧ m 2 = Real.sin (m 5033)) ∧
    (m 7 = Real.cos (m 5036) ∧ m 8 = Real.sin (m 5036)) ∧
    (m 11 = Real.cos (m 5038) ∧ m 12 = Real.sin (m 5038)) ∧ (m 17 = Real.cos (m 5039) ∧ m 15 = Real.sin (m 5039)) ∧
    (m 13 = Real.cos (m 5084) ∧ m 14 = Real.sin (m 5084)) :=
  ⟨⟨heq (1, .cos (.z 5033)) (rate_mem (by decide +kernel)), heq (2, .sin (.z 5033)) (rate_mem (by decide +kernel))⟩,
    ⟨heq (7, .cos (.z 5036)) (rate_mem (by decide +kernel)), heq (8, .sin (.z 5036)) (rate_mem (by decide +kernel))⟩,
    ⟨heq (11, .cos (.z 5038)) (rate_mem (by decide +kernel)), heq (12, .sin (.z 5038)) (rate_mem (by decide +kernel))⟩,
    ⟨heq (17, .cos (.z 5039)) (rate_mem (by decide +kernel)), heq (15, .sin (.z 5039)) (rate_mem (by decide +kernel))⟩,
    ⟨heq (13, .cos (.z 5084)) (rate_mem (by decide +kernel)), heq (14, .sin (.z 5084)) (rate_mem (by decide +kernel))⟩⟩

open E in
theorem spring_cell (heq : Agrees m) : m 407 = -m 5070 * m 5039 - m 5048 * m 5043 :=
  heq (407, neg k9 ⊛ q9 ⊝ c9 ⊛ u9) (rate_mem (by decide +kernel))

theorem lean_rate (heq : Agrees m) : m 5098 = m 5043 :=
  heq (5098, .z 5043) (rate_mem (by decide +kernel))

end

attribute [local irreducible] rates cellsAt evalLinear

variable (lam : ℝ) (junk : ℕ → ℝ) (f : String → ℝ) (x : Fin 13 → ℝ) (r : Fin 4 → ℝ)

theorem conf_cells : confCells.map (cellsAt lam junk (slotVector f) x r) = confOf f lam x := by
  obtain ⟨a1, a2, a3, a4, a5⟩ := more_trig (cellsAt_equation lam junk (slotVector f) x r)
  obtain ⟨t3, t4, t5, t6, t9, t10⟩ := roll_trig (cellsAt_equation lam junk (slotVector f) x r)
  have q2 : cellsAt lam junk (slotVector f) x r 5033 = x 2 := cell_q lam junk x r (slotVector f) 2 (by decide)
  have q3 : cellsAt lam junk (slotVector f) x r 5034 = x 3 := cell_q lam junk x r (slotVector f) 3 (by decide)
  have q4 : cellsAt lam junk (slotVector f) x r 5035 = x 4 := cell_q lam junk x r (slotVector f) 4 (by decide)
  have q5 : cellsAt lam junk (slotVector f) x r 5036 = x 5 := cell_q lam junk x r (slotVector f) 5 (by decide)
  have q6 : cellsAt lam junk (slotVector f) x r 5037 = x 6 := cell_q lam junk x r (slotVector f) 6 (by decide)
  have q7 : cellsAt lam junk (slotVector f) x r 5038 = x 7 := cell_q lam junk x r (slotVector f) 7 (by decide)
  have q8 : cellsAt lam junk (slotVector f) x r 5039 = x 8 := cell_q lam junk x r (slotVector f) 8 (by decide)
  have ql := cell_lam lam junk x r (slotVector f)
  have p35 : cellsAt lam junk (slotVector f) x r 5083 = f "rr" := cell_p lam junk x r (slotVector f) 35
  have p1 : cellsAt lam junk (slotVector f) x r 5049 = f "d1" := cell_p lam junk x r (slotVector f) 1
  have p2 : cellsAt lam junk (slotVector f) x r 5050 = f "d2" := cell_p lam junk x r (slotVector f) 2
  have p3 : cellsAt lam junk (slotVector f) x r 5051 = f "d3" := cell_p lam junk x r (slotVector f) 3
  have p4 : cellsAt lam junk (slotVector f) x r 5052 = f "d4" := cell_p lam junk x r (slotVector f) 4
  simp only [confCells, Conf.map, confOf]
  rw [a1.1, a1.2, t3, t4, t5, t6, a2.1, a2.2, t9, t10, a3.1, a3.2, a4.1, a4.2, a5.1, a5.2, q2, q3, q4, q5, q6, q7, q8,
    ql, p35, p1, p2, p3, p4]

theorem heavy_cells : heavyCells.map (cellsAt lam junk (slotVector f) x r) = heavyOf f := by
  have k := cell_p lam junk x r (slotVector f)
  simp only [heavyCells, Heavy.map, heavyOf]
  congr 1
  exacts [k 23, k 24, k 25, k 26, k 27, k 28, k 29, k 30, k 31, k 32, k 33, k 6, k 7, k 9, k 8, k 10, k 11, k 12, k 13,
    k 15, k 14, k 16, k 17, k 18, k 19, k 21, k 20]

/-- The rates of the coordinates. -/
theorem speed_rates (p : Fin 36 → ℝ) : speedCells.map (cellsAt lam junk p x r) = nineOf (rates lam junk p x r) := by
  have heq := cellsAt_equation lam junk p x r
  obtain ⟨a0, a1, a2, a3, a4, a5, a6, a7⟩ := rate_cells lam junk p x r
  have a8 := (rates_eq lam junk p x r 8).trans (lean_rate heq)
  have E := rollEqs heq
  have e1 := E.e5091
  have e2 := E.e5094
  have e3 := E.e5095
  simp only [speedCells, Nine.map, nineOf]
  rw [a0, a1, a2, a3, a4, a5, a6, a7, a8, e1, e2, e3]

theorem rate_speeds (p : Fin 36 → ℝ) : rates lam junk p x r 3 = x 9 ∧ rates lam junk p x r 5 = x 10 ∧
    rates lam junk p x r 6 = x 11 ∧ rates lam junk p x r 8 = x 12 := by
  have h := speed_rates lam junk x r p
  have c := cell_u lam junk x r p
  exact ⟨(congrArg Nine.n4 h).symm.trans (c 0), (congrArg Nine.n6 h).symm.trans (c 1),
    (congrArg Nine.n7 h).symm.trans (c 2), (congrArg Nine.n9 h).symm.trans (c 3)⟩

end BP.EL
