import Verif.Lemmas.JacobianValues
import Verif.Lemmas.JacobianDirs
import Verif.Lemmas.Upright
import Verif.Props.EvalLinear

/-!
# C126, C127: the matrices of `eval_linear` are the Jacobian of the equations of motion
-/

set_option linter.unusedSimpArgs false

namespace BP.EL

open BP.Spec Matrix

/-- The variables of _mooreriderlean2012.py:8 that are the rates of the states `q1 … q9`, `u4`, `u6`,
`u7`, `u9`. -/
def rateOf : Fin 13 → E := ![q1p, q2p, q3p, q4p, q5p, q6p, q7p, q8p, q9p, u4p, u6p, u7p, u9p]

/-- The cells at the end of _mooreriderlean2012.py:6-11188, started in the state `x` with the torques `r`,
when `lam` (line 73) is the given number. -/
noncomputable def cellsAt (lam : ℝ) (junk : ℕ → ℝ) (p : Fin 36 → ℝ) (x : Fin 13 → ℝ) (r : Fin 4 → ℝ) : ℕ → ℝ :=
  run real body (start (fun _ _ _ _ _ _ _ => lam) junk (coords x) (speeds x) r p)

/-- The equations of motion, _mooreriderlean2012.py:74-1488: the rates of the states that the first
1015 statements compute. -/
noncomputable def rates (lam : ℝ) (junk : ℕ → ℝ) (p : Fin 36 → ℝ) (x : Fin 13 → ℝ) (r : Fin 4 → ℝ) : Fin 13 → ℝ :=
  fun i => (rateOf i).val real (cellsAt lam junk p x r)

theorem rateOf_cell : ∀ i : Fin 13, rateOf i = .z (rateCell i) := by decide

theorem rates_eq (lam : ℝ) (junk : ℕ → ℝ) (p : Fin 36 → ℝ) (x : Fin 13 → ℝ) (r : Fin 4 → ℝ) (i : Fin 13) :
    rates lam junk p x r i = cellsAt lam junk p x r (rateCell i) := by
  simp only [rates, rateOf_cell, E.val]

/-- The tilt that the function of DynamicistToolKit returns. -/
def lamOf (pitch : ℝ → ℝ → ℝ → ℝ → ℝ → ℝ → ℝ → ℝ) (p : Fin 36 → ℝ) (x : Fin 13 → ℝ) : ℝ :=
  pitch (x 3) (x 6) (p 34) (p 35) (p 1) (p 2) (p 3)

theorem cellsAt_eq (pitch : ℝ → ℝ → ℝ → ℝ → ℝ → ℝ → ℝ → ℝ) (junk : ℕ → ℝ) (p : Fin 36 → ℝ) (x : Fin 13 → ℝ)
    (r : Fin 4 → ℝ) :
    cellsAt (lamOf pitch p x) junk p x r = run real body (start pitch junk (coords x) (speeds x) r p) := rfl

section sound
variable {m : ℕ → ℝ} (heq : ∀ s ∈ body, m s.1 = s.2.val real m)
include heq

/-- What the three conditions give. -/
theorem jac_env (h35 : 0 < m 35) (h494 : m 494 ≠ 0) (h1001 : m 1001 ≠ 0) :
    JEnv (jvars jacCells m) m jacValues := by
  have hroot : m 36 = √(m 35) := by
    obtain ⟨s, hs, h⟩ := List.any_eq_true.mp jac_root
    have e := heq s hs
    unfold isRoot at h
    split at h
    · rename_i c l k
      simp only [Bool.and_eq_true, Nat.beq_eq] at h
      obtain ⟨rfl, rfl, rfl⟩ := h
      simpa [E.val, real] using e
    · cases h
  have h36 : m 36 ≠ 0 := by rw [hroot]; exact (Real.sqrt_pos.mpr h35).ne'
  obtain ⟨c2, c5, c11⟩ := jac_cells
  have hat : ∀ l, inputOk l = true → ∀ q, jval jacValues l = some q → m l = qeval (jvars jacCells m) q := by
    intro l hl q hq
    unfold inputOk at hl
    split at hl
    · rename_i p e
      unfold jval at hq
      rw [e] at hq
      simp only [Option.some.injEq, JEnt.poly] at hq
      subst hq
      exact (atomOk_sound hl m).symm
    · cases hl
  refine ⟨⟨?_, ?_, ?_⟩, ?_, h35, ?_, ?_⟩
  · simp [jvars, c2, h36]
  · simp [jvars, c5, h494]
  · simp [jvars, c11, h1001]
  · simp [jvars, c2, hroot]
  · intro t ht q hq
    have h := List.all_eq_true.mp jac_trig t ht
    simp only [trigStmt, Bool.and_eq_true] at h
    rw [← hat _ h.2.2.1 q hq]
    obtain ⟨s, hs, h⟩ := List.any_eq_true.mp h.1
    have e := heq s hs
    unfold isCos at h
    split at h
    · simp only [Bool.and_eq_true, Nat.beq_eq] at h
      obtain ⟨rfl, rfl⟩ := h
      simpa [E.val, real] using e.symm
    · cases h
  · intro t ht q hq
    have h := List.all_eq_true.mp jac_trig t ht
    simp only [trigStmt, Bool.and_eq_true] at h
    rw [← hat _ h.2.2.2 q hq]
    obtain ⟨s, hs, h⟩ := List.any_eq_true.mp h.2.1
    have e := heq s hs
    unfold isSin at h
    split at h
    · simp only [Bool.and_eq_true, Nat.beq_eq] at h
      obtain ⟨rfl, rfl⟩ := h
      simpa [E.val, real] using e.symm
    · cases h

/-- The table is right about all cells. -/
theorem jac_good (h35 : 0 < m 35) (h494 : m 494 ≠ 0) (h1001 : m 1001 ≠ 0) (l : ℕ)
    (hl : Nat.testBit assigned l = true) : Good (jvars jacCells m) m jacValues l := by
  refine jvalCheck_sound (jac_env heq h35 h494 h1001) body inputs assigned body_defined jac_values heq ?_ l hl
  intro l hl
  rw [inputs_iff] at hl
  have h := List.all_eq_true.mp jac_inputs l (by rw [List.mem_range'_1]; omega)
  unfold inputOk at h
  split at h
  · rename_i p e
    refine ⟨fun q hq => ?_, fun p q k hq => by rw [e] at hq; cases hq⟩
    unfold jval at hq
    rw [e] at hq
    simp only [Option.some.injEq, JEnt.poly] at hq
    subst hq
    exact (atomOk_sound h m).symm
  · cases h

/-- The code divides by nothing else. -/
theorem safe_iff : (∀ s ∈ body, s.2.Safe m) ↔ 0 < m 35 ∧ m 494 ≠ 0 ∧ m 1001 ≠ 0 := by
  constructor
  · intro h
    have key : ∀ l ∈ [36, 494, 1001], m l ≠ 0 := by
      intro l hl
      have := List.all_eq_true.mp jac_div l hl
      obtain ⟨s, hs, h'⟩ := List.any_eq_true.mp this
      have e := h s hs
      unfold isDiv at h'
      split at h'
      · rw [Nat.beq_eq] at h'
        subst h'
        exact e.2
      · cases h'
    refine ⟨?_, key 494 (by simp), key 1001 (by simp)⟩
    obtain ⟨s, hs, h'⟩ := List.any_eq_true.mp jac_root
    have e := h s hs
    unfold isRoot at h'
    split at h'
    · simp only [Bool.and_eq_true, Nat.beq_eq] at h'
      obtain ⟨-, rfl, -⟩ := h'
      exact e.2
    · cases h'
  · rintro ⟨h35, h494, h1001⟩
    have hd : ∀ (p : List (ℕ × E)) (d : ℕ), definedCheck p d assigned = true → ∀ s ∈ p, s.2.reads assigned = true := by
      intro p
      induction p with
      | nil => simp
      | cons s' p ih =>
        intro d hd s hs
        have hsub : ∀ (p : List (ℕ × E)) (d : ℕ), definedCheck p d assigned = true → ∀ l, Nat.testBit d l = true →
            Nat.testBit assigned l = true := by
          intro p
          induction p with
          | nil =>
            intro d hd l hl
            have e : d = assigned := by simpa [definedCheck] using hd
            rw [← e]; exact hl
          | cons s p ih =>
            intro d hd l hl
            simp only [definedCheck, Bool.and_eq_true] at hd
            refine ih _ hd.2 l ?_
            change Nat.testBit (d ||| 1 <<< s.1) l = true
            simp [hl]
        have hd' := hd
        simp only [definedCheck, Bool.and_eq_true] at hd
        rcases List.mem_cons.mp hs with rfl | hs
        · have mono : ∀ e : E, e.reads d = true → e.reads assigned = true := by
            intro e he
            induction e <;> simp_all [E.reads]
            exact hsub _ _ hd' _ he
          exact mono _ hd.1.1
        · exact ih _ hd.2 s hs
    intro s hs
    exact safeCheck_sound (jac_env heq h35 h494 h1001) assigned
      (fun l hl => (jac_good heq h35 h494 h1001 l hl).val) s.2 (hd body inputs body_defined s hs)
      (List.all_eq_true.mp jac_safe s hs)

end sound

/-! ## The derivative -/

/-- States and torques. -/
abbrev Arg := (Fin 13 → ℝ) × (Fin 4 → ℝ)

/-- A state variable or a torque. -/
noncomputable def argProj (j : Fin 17) : Arg →L[ℝ] ℝ :=
  Fin.addCases (m := 13) (n := 4) (motive := fun _ => Arg →L[ℝ] ℝ)
    (fun i => (ContinuousLinearMap.proj i).comp (ContinuousLinearMap.fst ℝ (Fin 13 → ℝ) (Fin 4 → ℝ)))
    (fun i => (ContinuousLinearMap.proj i).comp (ContinuousLinearMap.snd ℝ (Fin 13 → ℝ) (Fin 4 → ℝ))) j

theorem argProj_state (i : Fin 13) (v : Arg) : argProj (Fin.castAdd 4 i) v = v.1 i := by
  unfold argProj; rw [Fin.addCases_left]; rfl

theorem argProj_torque (i : Fin 4) (v : Arg) : argProj (Fin.natAdd 13 i) v = v.2 i := by
  unfold argProj; rw [Fin.addCases_right]; rfl

/-- The linear map with given partial derivatives. -/
noncomputable def toMap : (Fin 17 → ℝ) →ₗ[ℝ] Arg →L[ℝ] ℝ where
  toFun w := ∑ j, w j • argProj j
  map_add' a b := by simp [add_smul, Finset.sum_add_distrib]
  map_smul' c a := by simp [mul_smul, Finset.smul_sum]

/-- The partial derivatives of a cell. -/
noncomputable def partials (x : ℕ → ℝ) (l : ℕ) (j : Fin 17) : ℝ := qeval x (jder (jacDir j) l)

theorem partials_input (x : ℕ → ℝ) (l : ℕ) (h1 : 5033 ≤ l) (h2 : l < 5085) (j : Fin 17) :
    partials x l j = if l = 5031 + j then 1 else 0 := by
  have h := List.all_eq_true.mp (List.all_eq_true.mp jac_dir_inputs j (by simp)) l
    (by rw [List.mem_range'_1]; omega)
  unfold dirInput at h
  unfold partials
  rw [qeq_sound h x]
  simp only [Bool.cond_eq_ite, Nat.beq_eq, show Nat.add 5031 j = 5031 + j.1 from rfl]
  split_ifs <;> simp [qeval, mono_one]

theorem toMap_state (x : ℕ → ℝ) (j : Fin 17) (hj : 2 ≤ j.1) : toMap (partials x (5031 + j.1)) = argProj j := by
  have e : partials x (5031 + j.1) = fun j' => if j' = j then 1 else 0 := by
    funext j'
    rw [partials_input x _ (by omega) (by omega)]
    by_cases h : j' = j
    · rw [h, if_pos rfl, if_pos rfl]
    · rw [if_neg h, if_neg]
      intro h'
      exact h (Fin.ext (by omega))
  rw [e]
  change (∑ j' : Fin 17, (if j' = j then (1 : ℝ) else 0) • argProj j') = _
  simp

theorem toMap_constant (x : ℕ → ℝ) (l : ℕ) (h1 : 5048 ≤ l) (h2 : l < 5085) : toMap (partials x l) = 0 := by
  have e : partials x l = 0 := by
    funext j
    rw [partials_input x l (by omega) h2, if_neg (by omega)]
    rfl
  rw [e, map_zero]

/-- The derivatives of all cells that the rates depend on. -/
theorem cells_deriv_aux (μ : Arg → ℕ → ℝ) (heq : ∀ (a : Arg), ∀ s ∈ body, μ a s.1 = s.2.val real (μ a))
    (hin : ∀ (a : Arg) (j : Fin 17), 2 ≤ j.1 → μ a (5031 + j.1) = argProj j a)
    (hc : ∀ (a a' : Arg) (l : ℕ), 5048 ≤ l ∧ l < 5085 → μ a l = μ a' l) (a : Arg)
    (hdef : ∀ s ∈ body, s.2.Safe (μ a)) (l : ℕ) (hl : Nat.testBit rateMarks l = true) :
    HasFDerivAt (fun a : Arg => μ a l) (toMap (partials (jvars jacCells (μ a)) l)) a := by
  obtain ⟨h35, h494, h1001⟩ := (safe_iff (heq a)).mp hdef
  have hE := jac_env (heq a) h35 h494 h1001
  have hG := jac_good (heq a) h35 h494 h1001
  have hsub : ∀ s ∈ rateBody, Nat.testBit assigned s.1 = true := by
    intro s hs
    have := List.all_eq_true.mp jac_rate_assigned s hs
    exact this
  refine (run_pred (fun l => Good (jvars jacCells (μ a)) (μ a) jacValues l ∧
    HasFDerivAt (fun a : Arg => μ a l) (toMap (partials (jvars jacCells (μ a)) l)) a)
    rateBody inputs rateMarks jac_rate_defined ?_ ?_ l hl).2
  · intro s hs d hd ih
    have hs' : s ∈ body := List.mem_of_mem_take hs
    have key : ∀ j : Fin 17, s.2.diff (μ a) (fun l => partials (jvars jacCells (μ a)) l j) =
        partials (jvars jacCells (μ a)) s.1 j ∧ s.2.Safe (μ a) := fun j =>
      dirOk_sound hE hG d (fun l hl => (ih l hl).1) s hd (jdirCheck_mem (jac_dirs j) hs)
    refine ⟨hG _ (hsub s hs), ?_⟩
    have h := hasFDerivAt_val μ (fun l => toMap (partials (jvars jacCells (μ a)) l)) a d
      (fun l hl => (ih l hl).2) s.2 hd (key 0).2
    have h2 : (fun a : Arg => μ a s.1) = fun a => s.2.val real (μ a) := funext fun a => heq a s hs'
    rw [h2]
    refine h.congr_fderiv ?_
    rw [← diff_map toMap (μ a) (fun l => partials (jvars jacCells (μ a)) l)]
    congr 1
    funext j
    rw [← (key j).1]
    exact diff_map (LinearMap.proj j : (Fin 17 → ℝ) →ₗ[ℝ] ℝ) (μ a) (fun l => partials (jvars jacCells (μ a)) l) s.2
  · intro l hl
    have hl' := (inputs_iff l).mp hl
    refine ⟨hG l (jac_inputs_assigned l hl'), ?_⟩
    rcases lt_or_ge l 5048 with h | h
    · obtain ⟨j, rfl⟩ := Nat.exists_eq_add_of_le (show 5031 ≤ l by omega)
      have hj : j < 17 := by omega
      have hj2 : 2 ≤ j := by omega
      have e := toMap_state (jvars jacCells (μ a)) ⟨j, hj⟩ hj2
      simp only at e
      rw [e, show (fun a : Arg => μ a (5031 + j)) = argProj ⟨j, hj⟩ from funext fun a => hin a ⟨j, hj⟩ hj2]
      generalize argProj ⟨j, hj⟩ = f
      exact f.hasFDerivAt
    · rw [toMap_constant _ l h hl'.2,
        show (fun a' : Arg => μ a' l) = fun _ => μ a l from funext fun a' => hc a' a l ⟨h, hl'.2⟩]
      exact hasFDerivAt_const _ _

theorem cells_deriv (lam : ℝ) (junk : ℕ → ℝ) (p : Fin 36 → ℝ) (x : Fin 13 → ℝ) (r : Fin 4 → ℝ)
    (hdef : ∀ s ∈ body, s.2.Safe (cellsAt lam junk p x r)) (l : ℕ) (hl : Nat.testBit rateMarks l = true) :
    HasFDerivAt (fun a : Arg => cellsAt lam junk p a.1 a.2 l)
      (toMap (partials (jvars jacCells (cellsAt lam junk p x r)) l)) (x, r) := by
  have hkeep : ∀ (a : Arg) (l : ℕ), Nat.testBit inputs l = true → cellsAt lam junk p a.1 a.2 l =
      start (fun _ _ _ _ _ _ _ => lam) junk (coords a.1) (speeds a.1) a.2 p l :=
    fun a l hl => run_keep real body inputs assigned body_defined _ l hl
  refine cells_deriv_aux (fun a : Arg => cellsAt lam junk p a.1 a.2)
    (fun a s hs => run_equation real body inputs assigned body_defined _ s hs) ?_ ?_ (x, r) hdef l hl
  · intro a j hj
    have hi : Nat.testBit inputs (5031 + j.1) = true := (inputs_iff _).mpr ⟨by omega, by omega⟩
    rw [hkeep a _ hi]
    revert hj
    refine Fin.addCases (m := 13) (n := 4) (motive := fun j => 2 ≤ j.1 → start (fun _ _ _ _ _ _ _ => lam) junk
      (coords a.1) (speeds a.1) a.2 p (5031 + j.1) = argProj j a) ?_ ?_ j
    · intro j
      refine Fin.addCases (m := 9) (n := 4) (motive := fun j => 2 ≤ (Fin.castAdd 4 j).1 →
        start (fun _ _ _ _ _ _ _ => lam) junk (coords a.1) (speeds a.1) a.2 p (5031 + (Fin.castAdd 4 j).1) =
        argProj (Fin.castAdd 4 j) a) ?_ ?_ j
      · intro i _
        rw [argProj_state]
        exact start_q _ _ _ _ _ _ i
      · intro i _
        rw [argProj_state, Fin.val_castAdd, Fin.val_natAdd, ← add_assoc]
        exact start_u _ _ _ _ _ _ i
    · intro i _
      rw [argProj_torque, Fin.val_natAdd, ← add_assoc]
      exact start_r _ _ _ _ _ _ i
  · intro a a' l h
    have hi : Nat.testBit inputs l = true := (inputs_iff l).mpr ⟨by omega, h.2⟩
    rw [hkeep a l hi, hkeep a' l hi]
    revert h
    refine inputs_cases (P := fun l => 5048 ≤ l ∧ l < 5085 → start (fun _ _ _ _ _ _ _ => lam) junk
      (coords a.1) (speeds a.1) a.2 p l = start (fun _ _ _ _ _ _ _ => lam) junk
      (coords a'.1) (speeds a'.1) a'.2 p l) ?_ ?_ ?_ ?_ ?_ l hi
    · intro i _ h; omega
    · intro i h; omega
    · intro i h; omega
    · intro i h; rw [start_p, start_p]
    · intro h; rw [start_lam, start_lam]

theorem matrix_partials {m : ℕ → ℝ} (hG : ∀ l, Nat.testBit assigned l = true → Good (jvars jacCells m) m jacValues l)
    (i : Fin 13) :
    (∀ j : Fin 13, m (5200 + 13 * i + j) = partials (jvars jacCells m) (rateCell i) (Fin.castAdd 4 j)) ∧
    ∀ j : Fin 4, m (5400 + 4 * i + j) = partials (jvars jacCells m) (rateCell i) (Fin.natAdd 13 j) := by
  obtain ⟨hA, hB, -, -⟩ := cells_assigned
  have key : ∀ j : Fin 17, matrixOk i j = true := fun j =>
    List.all_eq_true.mp (List.all_eq_true.mp jac_matrix i (by simp)) j (by simp)
  refine ⟨fun j => ?_, fun j => ?_⟩
  · have h := key (Fin.castAdd 4 j)
    unfold matrixOk at h
    rw [show Nat.ble (Fin.castAdd 4 j : Fin 17) 12 = true by simp [Nat.ble_eq]; omega, cond_true] at h
    obtain ⟨q, h1, h2⟩ := qeqO_some h (jvars jacCells m)
    rw [(hG _ (hA i j)).val q h1, h2]
    rfl
  · have h := key (Fin.natAdd 13 j)
    unfold matrixOk at h
    rw [show Nat.ble (Fin.natAdd 13 j : Fin 17) 12 = false by
      rw [Bool.eq_false_iff, ne_eq, Nat.ble_eq, Fin.val_natAdd]; omega, cond_false, Fin.val_natAdd,
      Nat.add_sub_cancel_left] at h
    obtain ⟨q, h1, h2⟩ := qeqO_some h (jvars jacCells m)
    rw [(hG _ (hB i j)).val q h1, h2]
    rfl

/-- **C126.** In every configuration of the bicycle, upright or not, at every speed and under every
torque, the matrices `A` and `B` that `eval_linear` returns are the derivative of the nonlinear equations
of motion that it evaluates on the way; `lam`, the tilt of the steering axis, is a constant of these
equations. -/
theorem C126_jacobian (pitch : ℝ → ℝ → ℝ → ℝ → ℝ → ℝ → ℝ → ℝ) (junk : ℕ → ℝ) (p : Fin 36 → ℝ) (x : Fin 13 → ℝ)
    (r : Fin 4 → ℝ) (hdef : ∀ s ∈ body, s.2.Safe (cellsAt (lamOf pitch p x) junk p x r)) :
    let R := evalLinear real pitch junk (coords x) (speeds x) r p
    ∃ L : (Fin 13 → ℝ) × (Fin 4 → ℝ) →L[ℝ] Fin 13 → ℝ,
      HasFDerivAt (fun a => rates (lamOf pitch p x) junk p a.1 a.2) L (x, r) ∧
      ∀ δx δr, L (δx, δr) = R.A *ᵥ δx + R.B *ᵥ δr := by
  intro R
  have heq : ∀ s ∈ body, cellsAt (lamOf pitch p x) junk p x r s.1 =
      s.2.val real (cellsAt (lamOf pitch p x) junk p x r) :=
    fun s hs => run_equation real body inputs assigned body_defined _ s hs
  obtain ⟨h35, h494, h1001⟩ := (safe_iff heq).mp hdef
  have hG := jac_good heq h35 h494 h1001
  refine ⟨ContinuousLinearMap.pi fun i => toMap (partials (jvars jacCells (cellsAt (lamOf pitch p x) junk p x r))
    (rateCell i)), ?_, ?_⟩
  · rw [hasFDerivAt_pi]
    intro i
    simp only [rates_eq]
    exact cells_deriv _ _ _ _ _ hdef _ (List.all_eq_true.mp jac_rates i (by simp))
  · intro δx δr
    funext i
    obtain ⟨hA, hB⟩ := matrix_partials hG i
    rw [ContinuousLinearMap.pi_apply]
    change (∑ j : Fin (13 + 4), _ • argProj j) (δx, δr) = _
    rw [Fin.sum_univ_add, _root_.add_apply, ContinuousLinearMap.sum_apply, ContinuousLinearMap.sum_apply,
      Pi.add_apply, Matrix.mulVec, Matrix.mulVec, dotProduct, dotProduct]
    refine congrArg₂ (· + ·) ?_ ?_
    · refine Finset.sum_congr rfl fun j _ => ?_
      rw [_root_.smul_apply, argProj_state, smul_eq_mul, evalLinear_A, ← cellsAt_eq, hA j]
    · refine Finset.sum_congr rfl fun j _ => ?_
      rw [_root_.smul_apply, argProj_torque, smul_eq_mul, evalLinear_B, ← cellsAt_eq, hB j]

/-- **C126.** The condition of `C126_jacobian` excludes three cases only: the front wheel lies flat on
the ground, the rolling conditions are dependent, the matrix of inertias is singular. -/
theorem C126_defined (lam : ℝ) (junk : ℕ → ℝ) (p : Fin 36 → ℝ) (x : Fin 13 → ℝ) (r : Fin 4 → ℝ) :
    let m := cellsAt lam junk p x r
    (∀ s ∈ body, s.2.Safe m) ↔ 0 < m 35 ∧ m 494 ≠ 0 ∧ m 1001 ≠ 0 :=
  safe_iff fun s hs => run_equation real body inputs assigned body_defined _ s hs

/-- The outputs: the coordinates and their rates. -/
noncomputable def outputs (lam : ℝ) (junk : ℕ → ℝ) (p : Fin 36 → ℝ) (x : Fin 13 → ℝ) (r : Fin 4 → ℝ) : Fin 18 → ℝ :=
  Fin.append (coords x) (coords (rates lam junk p x r))

/-- **C126.** `C` and `D` are the derivative of the coordinates and of their rates. -/
theorem C126_outputs (pitch : ℝ → ℝ → ℝ → ℝ → ℝ → ℝ → ℝ → ℝ) (junk : ℕ → ℝ) (p : Fin 36 → ℝ) (x : Fin 13 → ℝ)
    (r : Fin 4 → ℝ) (hdef : ∀ s ∈ body, s.2.Safe (cellsAt (lamOf pitch p x) junk p x r)) :
    let R := evalLinear real pitch junk (coords x) (speeds x) r p
    ∃ L : (Fin 13 → ℝ) × (Fin 4 → ℝ) →L[ℝ] Fin 18 → ℝ,
      HasFDerivAt (fun a => outputs (lamOf pitch p x) junk p a.1 a.2) L (x, r) ∧
      ∀ δx δr, L (δx, δr) = R.C *ᵥ δx + R.D *ᵥ δr := by
  intro R
  obtain ⟨L, hL, e⟩ := C126_jacobian pitch junk p x r hdef
  obtain ⟨hD, hB, -, -, -, hC1, hC2⟩ := C70_shape real pitch junk (coords x) (speeds x) r p
  rw [hasFDerivAt_pi'] at hL
  let K : Fin 18 → (Fin 13 → ℝ) × (Fin 4 → ℝ) →L[ℝ] ℝ := fun i =>
    Fin.addCases (m := 9) (n := 9) (motive := fun _ => (Fin 13 → ℝ) × (Fin 4 → ℝ) →L[ℝ] ℝ)
      (fun i => argProj (Fin.castAdd 4 (Fin.castAdd 4 i)))
      (fun i => (ContinuousLinearMap.proj (Fin.castAdd 4 i)).comp L) i
  refine ⟨ContinuousLinearMap.pi K, ?_, ?_⟩
  · rw [hasFDerivAt_pi]
    intro i
    refine Fin.addCases (m := 9) (n := 9) (motive := fun i =>
      HasFDerivAt (fun a : Arg => outputs (lamOf pitch p x) junk p a.1 a.2 i) (K i) (x, r)) ?_ ?_ i
    · intro i
      have e1 : (fun a : Arg => outputs (lamOf pitch p x) junk p a.1 a.2 (Fin.castAdd 9 i)) =
          argProj (Fin.castAdd 4 (Fin.castAdd 4 i)) := by
        funext a
        rw [argProj_state]
        exact Fin.append_left _ _ i
      have e2 : K (Fin.castAdd 9 i) = argProj (Fin.castAdd 4 (Fin.castAdd 4 i)) := Fin.addCases_left i
      rw [e1, e2]
      generalize argProj (Fin.castAdd 4 (Fin.castAdd 4 i)) = f
      exact f.hasFDerivAt
    · intro i
      have e1 : (fun a : Arg => outputs (lamOf pitch p x) junk p a.1 a.2 (Fin.natAdd 9 i)) =
          fun a : Arg => rates (lamOf pitch p x) junk p a.1 a.2 (Fin.castAdd 4 i) := by
        funext a
        exact Fin.append_right _ _ i
      have e2 : K (Fin.natAdd 9 i) = (ContinuousLinearMap.proj (Fin.castAdd 4 i)).comp L := Fin.addCases_right i
      rw [e1, e2]
      exact hL (Fin.castAdd 4 i)
  · intro δx δr
    funext i
    have z0 : real.int 0 = 0 := by simp [real]
    have hD0 : R.D = 0 := by ext i j; rw [hD i j, z0]; rfl
    rw [hD0, Matrix.zero_mulVec, add_zero, ContinuousLinearMap.pi_apply]
    refine Fin.addCases (m := 9) (n := 9) (motive := fun i => K i (δx, δr) = (R.C *ᵥ δx) i) ?_ ?_ i
    · intro i
      rw [show K (Fin.castAdd 9 i) = argProj (Fin.castAdd 4 (Fin.castAdd 4 i)) from Fin.addCases_left i,
        argProj_state, Matrix.mulVec, dotProduct, Finset.sum_eq_single (Fin.castAdd 4 i)]
      · rw [hC1 _ _ (by simp), if_pos (by simp)]
        simp [real]
      · intro j _ hj
        rw [hC1 _ _ (by simp), if_neg (by
          intro h; exact hj (Fin.ext (by simpa using h.symm))), z0, zero_mul]
      · simp
    · intro i
      rw [show K (Fin.natAdd 9 i) = (ContinuousLinearMap.proj (Fin.castAdd 4 i)).comp L from Fin.addCases_right i]
      change L (δx, δr) (Fin.castAdd 4 i) = _
      rw [e]
      have hB0 : (R.B *ᵥ δr) (Fin.castAdd 4 i) = 0 := by
        rw [Matrix.mulVec, dotProduct]
        refine Finset.sum_eq_zero fun j _ => ?_
        rw [hB _ j (by simp), z0, zero_mul]
      rw [Pi.add_apply, hB0, add_zero, Matrix.mulVec, Matrix.mulVec, dotProduct, dotProduct]
      refine Finset.sum_congr rfl fun j _ => ?_
      rw [hC2 i j]

end BP.EL
