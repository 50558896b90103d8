import Verif.Lemmas.EvalLinearChecks
import Verif.Spec.EvalLinear

/-!
# Properties of `eval_linear`: C70, C100-C103
-/

set_option linter.unusedSimpArgs false

namespace BP.EL

open BP.Spec

/-- _mooreriderlean2012.py:6-11188.  `junk` is what `empty` left in the arrays. -/
def evalLinear {F : Type} (O : Arith F) (pitch : F → F → F → F → F → F → F → F) (junk : ℕ → F)
    (q : Fin 9 → F) (u r : Fin 4 → F) (p : Fin 36 → F) : Result F :=
  matrices (run O body (start pitch junk q u r p))

theorem inputs_iff (l : ℕ) : Nat.testBit inputs l = true ↔ 5033 ≤ l ∧ l < 5085 := by
  unfold inputs
  rw [Nat.testBit_shiftLeft, Nat.testBit_two_pow_sub_one]
  simp only [Bool.and_eq_true, decide_eq_true_eq]
  omega

/-- The arguments by cell. -/
theorem inputs_cases {P : ℕ → Prop} (hq : ∀ i : Fin 9, 2 ≤ i.1 → P (5031 + i))
    (hu : ∀ i : Fin 4, P (5040 + i)) (hr : ∀ i : Fin 4, P (5044 + i))
    (hp : ∀ i : Fin 36, P (5048 + i)) (hl : P 5084) (l : ℕ) (h : Nat.testBit inputs l = true) : P l := by
  rw [inputs_iff] at h
  rcases lt_or_ge l 5040 with h1 | h1
  · have := hq ⟨l - 5031, by omega⟩ (by simp; omega)
    rwa [show 5031 + (l - 5031) = l by omega] at this
  rcases lt_or_ge l 5044 with h2 | h2
  · have := hu ⟨l - 5040, by omega⟩
    rwa [show 5040 + (l - 5040) = l by omega] at this
  rcases lt_or_ge l 5048 with h3 | h3
  · have := hr ⟨l - 5044, by omega⟩
    rwa [show 5044 + (l - 5044) = l by omega] at this
  rcases lt_or_ge l 5084 with h4 | h4
  · have := hp ⟨l - 5048, by omega⟩
    rwa [show 5048 + (l - 5048) = l by omega] at this
  · rwa [show l = 5084 by omega]

section start

variable {F : Type} (pitch : F → F → F → F → F → F → F → F) (junk : ℕ → F) (q : Fin 9 → F)
  (u r : Fin 4 → F) (p : Fin 36 → F)

theorem start_q (i : Fin 9) : start pitch junk q u r p (5031 + i) = q i := by
  unfold start
  rw [dif_pos (by omega)]
  exact congrArg q (Fin.ext (Nat.add_sub_cancel_left ..))

theorem start_u (i : Fin 4) : start pitch junk q u r p (5040 + i) = u i := by
  unfold start
  rw [dif_neg (by omega), dif_pos (by omega)]
  exact congrArg u (Fin.ext (Nat.add_sub_cancel_left ..))

theorem start_r (i : Fin 4) : start pitch junk q u r p (5044 + i) = r i := by
  unfold start
  rw [dif_neg (by omega), dif_neg (by omega), dif_pos (by omega)]
  exact congrArg r (Fin.ext (Nat.add_sub_cancel_left ..))

theorem start_p (i : Fin 36) : start pitch junk q u r p (5048 + i) = p i := by
  unfold start
  rw [dif_neg (by omega), dif_neg (by omega), dif_neg (by omega), dif_pos (by omega)]
  exact congrArg p (Fin.ext (Nat.add_sub_cancel_left ..))

theorem start_lam : start pitch junk q u r p 5084 =
    pitch (q 3) (q 6) (p 34) (p 35) (p 1) (p 2) (p 3) := by
  unfold start
  simp

end start

theorem matrices_A {F : Type} (m : ℕ → F) (i j : Fin 13) : (matrices m).A i j = m (5200 + 13 * i + j) := rfl

theorem matrices_B {F : Type} (m : ℕ → F) (i : Fin 13) (j : Fin 4) : (matrices m).B i j = m (5400 + 4 * i + j) := rfl

theorem matrices_C {F : Type} (m : ℕ → F) (i : Fin 18) (j : Fin 13) : (matrices m).C i j = m (5500 + 13 * i + j) := rfl

theorem matrices_D {F : Type} (m : ℕ → F) (i : Fin 18) (j : Fin 4) : (matrices m).D i j = m (5800 + 4 * i + j) := rfl

section cells

variable {F : Type} (O : Arith F) (pitch : F → F → F → F → F → F → F → F) (junk : ℕ → F)
  (q : Fin 9 → F) (u r : Fin 4 → F) (p : Fin 36 → F)

theorem evalLinear_A (i j : Fin 13) : (evalLinear O pitch junk q u r p).A i j =
    run O body (start pitch junk q u r p) (5200 + 13 * i + j) := by
  exact matrices_A _ i j

theorem evalLinear_B (i : Fin 13) (j : Fin 4) : (evalLinear O pitch junk q u r p).B i j =
    run O body (start pitch junk q u r p) (5400 + 4 * i + j) := by
  exact matrices_B _ i j

theorem evalLinear_C (i : Fin 18) (j : Fin 13) : (evalLinear O pitch junk q u r p).C i j =
    run O body (start pitch junk q u r p) (5500 + 13 * i + j) := by
  exact matrices_C _ i j

theorem evalLinear_D (i : Fin 18) (j : Fin 4) : (evalLinear O pitch junk q u r p).D i j =
    run O body (start pitch junk q u r p) (5800 + 4 * i + j) := by
  exact matrices_D _ i j

end cells

/-- The cells of the matrices are assigned. -/
theorem cells_assigned :
    (∀ i j : Fin 13, Nat.testBit assigned (5200 + 13 * i + j) = true) ∧
    (∀ (i : Fin 13) (j : Fin 4), Nat.testBit assigned (5400 + 4 * i + j) = true) ∧
    (∀ (i : Fin 18) (j : Fin 13), Nat.testBit assigned (5500 + 13 * i + j) = true) ∧
    (∀ (i : Fin 18) (j : Fin 4), Nat.testBit assigned (5800 + 4 * i + j) = true) := by decide +kernel

/-- **C70.** Whatever arithmetic the machine performs, the result is a function of the
arguments: nothing that `empty` left in the arrays, and no variable that is not assigned yet,
has an influence on any entry.  Nor has the position `q1, q2` of the bicycle. -/
theorem C70_no_uninitialised_memory {F : Type} (O : Arith F)
    (pitch : F → F → F → F → F → F → F → F) (junk junk' : ℕ → F) (q q' : Fin 9 → F)
    (hq : ∀ i : Fin 9, 2 ≤ i.1 → q i = q' i) (u r : Fin 4 → F) (p : Fin 36 → F) :
    evalLinear O pitch junk q u r p = evalLinear O pitch junk' q' u r p := by
  have key : ∀ l, Nat.testBit assigned l = true →
      run O body (start pitch junk q u r p) l = run O body (start pitch junk' q' u r p) l := by
    refine run_rel O O (fun _ x y => x = y) body ?_ inputs assigned body_defined _ _ ?_
    · intro s _ d m m' hr h
      exact val_congr O d s.2 m m' hr h
    · refine inputs_cases ?_ ?_ ?_ ?_ ?_
      · intro i hi; rw [start_q, start_q, hq i hi]
      · intro i; rw [start_u, start_u]
      · intro i; rw [start_r, start_r]
      · intro i; rw [start_p, start_p]
      · rw [start_lam, start_lam, hq 3 (by decide), hq 6 (by decide)]
  obtain ⟨hA, hB, hC, hD⟩ := cells_assigned
  refine Result.ext ?_ ?_ ?_ ?_ <;> ext i j
  · rw [evalLinear_A, evalLinear_A]; exact key _ (hA i j)
  · rw [evalLinear_B, evalLinear_B]; exact key _ (hB i j)
  · rw [evalLinear_C, evalLinear_C]; exact key _ (hC i j)
  · rw [evalLinear_D, evalLinear_D]; exact key _ (hD i j)

/-! ## Units -/

/-- The tables at the arguments. -/
theorem tables_inputs :
    (∀ i : Fin 9, ((look massTable (5031 + i) : ℤ) - 64, (look lengthTable (5031 + i) : ℤ) - 64,
      (look timeTable (5031 + i) : ℤ) - 64) = coordDim i) ∧
    (∀ i : Fin 4, ((look massTable (5040 + i) : ℤ) - 64, (look lengthTable (5040 + i) : ℤ) - 64,
      (look timeTable (5040 + i) : ℤ) - 64) = speedDim) ∧
    (∀ i : Fin 4, ((look massTable (5044 + i) : ℤ) - 64, (look lengthTable (5044 + i) : ℤ) - 64,
      (look timeTable (5044 + i) : ℤ) - 64) = torqueDim) ∧
    (∀ i : Fin 36, ((look massTable (5048 + i) : ℤ) - 64, (look lengthTable (5048 + i) : ℤ) - 64,
      (look timeTable (5048 + i) : ℤ) - 64) = parameterDim (evalLinearSlots.getD i "")) ∧
    ((look massTable 5084 : ℤ) - 64, (look lengthTable 5084 : ℤ) - 64,
      (look timeTable 5084 : ℤ) - 64) = ((0, 0, 0) : Dim) := by decide +kernel

/-- The tables at the matrices. -/
theorem tables_matrices :
    (∀ i j : Fin 13, ((look massTable (5200 + 13 * i + j) : ℤ) - 64,
      (look lengthTable (5200 + 13 * i + j) : ℤ) - 64,
      (look timeTable (5200 + 13 * i + j) : ℤ) - 64) = stateDim i + (0, 0, -1) - stateDim j) ∧
    (∀ (i : Fin 13) (j : Fin 4), ((look massTable (5400 + 4 * i + j) : ℤ) - 64,
      (look lengthTable (5400 + 4 * i + j) : ℤ) - 64,
      (look timeTable (5400 + 4 * i + j) : ℤ) - 64) = stateDim i + (0, 0, -1) - torqueDim) ∧
    (∀ (i : Fin 18) (j : Fin 13), ((look massTable (5500 + 13 * i + j) : ℤ) - 64,
      (look lengthTable (5500 + 13 * i + j) : ℤ) - 64,
      (look timeTable (5500 + 13 * i + j) : ℤ) - 64) = outputDim i - stateDim j) ∧
    (∀ (i : Fin 18) (j : Fin 4), ((look massTable (5800 + 4 * i + j) : ℤ) - 64,
      (look lengthTable (5800 + 4 * i + j) : ℤ) - 64,
      (look timeTable (5800 + 4 * i + j) : ℤ) - 64) = outputDim i - torqueDim) := by decide +kernel

/-- **C100.** The result does not depend on the units: if masses, lengths and times are all
given in other units, consistently, every entry of the matrices is the same physical
quantity in those units.  `hpitch`: the pitch, an angle, depends on ratios of lengths only. -/
theorem C100_units (pitch : ℝ → ℝ → ℝ → ℝ → ℝ → ℝ → ℝ → ℝ) (junk junk' : ℕ → ℝ) (M L T : ℝ)
    (hM : 0 < M) (hL : 0 < L) (hT : 0 < T)
    (hpitch : ∀ a b rf rr d1 d2 d3,
      pitch a b (L * rf) (L * rr) (L * d1) (L * d2) (L * d3) = pitch a b rf rr d1 d2 d3)
    (q : Fin 9 → ℝ) (u r : Fin 4 → ℝ) (p : Fin 36 → ℝ) :
    let R := evalLinear real pitch junk q u r p
    let R' := evalLinear real pitch junk' (fun i => factor M L T (coordDim i) * q i)
      (fun i => factor M L T speedDim * u i) (fun i => factor M L T torqueDim * r i)
      (fun k => factor M L T (parameterDim (evalLinearSlots.getD k "")) * p k)
    (∀ i j, R'.A i j = factor M L T (stateDim i + (0, 0, -1) - stateDim j) * R.A i j) ∧
    (∀ i j, R'.B i j = factor M L T (stateDim i + (0, 0, -1) - torqueDim) * R.B i j) ∧
    (∀ i j, R'.C i j = factor M L T (outputDim i - stateDim j) * R.C i j) ∧
    (∀ i j, R'.D i j = factor M L T (outputDim i - torqueDim) * R.D i j) := by
  intro R R'
  set m := start pitch junk q u r p with hm
  set m' := start pitch junk' (fun i => factor M L T (coordDim i) * q i)
      (fun i => factor M L T speedDim * u i) (fun i => factor M L T torqueDim * r i)
      (fun k => factor M L T (parameterDim (evalLinearSlots.getD k "")) * p k) with hm'
  have key : ∀ l, Nat.testBit assigned l = true → run real body m' l =
      factor M L T ((look massTable l : ℤ) - 64, (look lengthTable l : ℤ) - 64,
        (look timeTable l : ℤ) - 64) * run real body m l := by
    set m1 : ℕ → ℝ := fun l => M ^ ((look massTable l : ℤ) - 64) * m l with hm1
    set m2 : ℕ → ℝ := fun l => L ^ ((look lengthTable l : ℤ) - 64) * m1 l with hm2
    have k1 := run_graded (unit_action hM) massTable body body_mass inputs assigned body_defined m m1
      (fun l _ => rfl)
    have k2 := run_graded (unit_action hL) lengthTable body body_length inputs assigned body_defined
      m1 m2 (fun l _ => rfl)
    have k3 := run_graded (unit_action hT) timeTable body body_time inputs assigned body_defined
      m2 m' ?_
    · intro l hl
      rw [k3 l hl, k2 l hl, k1 l hl]
      simp only [factor]; ring
    · obtain ⟨t1, t2, t3, t4, t5⟩ := tables_inputs
      have e : ∀ l (x y : ℝ) (D : Dim), ((look massTable l : ℤ) - 64, (look lengthTable l : ℤ) - 64,
          (look timeTable l : ℤ) - 64) = D → m' l = factor M L T D * x → m l = x →
          m' l = T ^ ((look timeTable l : ℤ) - 64) * m2 l := by
        rintro l x y D rfl h1 h2
        rw [h1, hm2, hm1, ← h2]; simp only [factor]; ring
      refine inputs_cases ?_ ?_ ?_ ?_ ?_
      · intro i _; exact e _ (q i) 0 _ (t1 i) (start_q ..) (start_q ..)
      · intro i; exact e _ (u i) 0 _ (t2 i) (start_u ..) (start_u ..)
      · intro i; exact e _ (r i) 0 _ (t3 i) (start_r ..) (start_r ..)
      · intro i; exact e _ (p i) 0 _ (t4 i) (start_p ..) (start_p ..)
      · refine e _ _ 0 _ t5 ?_ (start_lam ..)
        have f0 : factor M L T (0, 0, 0) = 1 := by simp [factor]
        have f1 : ∀ k : Fin 36, parameterDim (evalLinearSlots.getD k "") = (0, 1, 0) →
            factor M L T (parameterDim (evalLinearSlots.getD k "")) = L := by
          intro k hk; rw [hk]; simp [factor]
        rw [hm', start_lam, f0, one_mul, f1 34 (by decide), f1 35 (by decide), f1 1 (by decide),
          f1 2 (by decide), f1 3 (by decide), hpitch,
          show coordDim 3 = (0, 0, 0) from rfl, show coordDim 6 = (0, 0, 0) from rfl, f0, one_mul, one_mul]
  obtain ⟨hA, hB, hC, hD⟩ := cells_assigned
  obtain ⟨tA, tB, tC, tD⟩ := tables_matrices
  refine ⟨fun i j => ?_, fun i j => ?_, fun i j => ?_, fun i j => ?_⟩
  · rw [evalLinear_A, evalLinear_A, ← tA i j]; exact key _ (hA i j)
  · rw [evalLinear_B, evalLinear_B, ← tB i j]; exact key _ (hB i j)
  · rw [evalLinear_C, evalLinear_C, ← tC i j]; exact key _ (hC i j)
  · rw [evalLinear_D, evalLinear_D, ← tD i j]; exact key _ (hD i j)

/-! ## Mirror and time reversal -/

/-- The tables of signs at the arguments. -/
theorem sign_tables_inputs :
    (∀ i : Fin 9, look mirrorTable (5031 + i) =
      (![1, 2, 2, 2, 1, 1, 2, 1, 2] : Fin 9 → ℕ) i ∧ look reversalTable (5031 + i) = 1) ∧
    (∀ i : Fin 4, look mirrorTable (5040 + i) = (![2, 1, 2, 2] : Fin 4 → ℕ) i ∧
      look reversalTable (5040 + i) = 2) ∧
    (∀ i : Fin 4, look mirrorTable (5044 + i) = (![2, 1, 2, 2] : Fin 4 → ℕ) i ∧
      look reversalTable (5044 + i) = 1) ∧
    (∀ i : Fin 36, look mirrorTable (5048 + i) = 1 ∧
      look reversalTable (5048 + i) = if i = 0 then 2 else 1) ∧
    look mirrorTable 5084 = 1 ∧ look reversalTable 5084 = 1 := by decide +kernel

theorem sgn_coordMirror (i : Fin 9) : sgn ((![1, 2, 2, 2, 1, 1, 2, 1, 2] : Fin 9 → ℕ) i) =
    coordMirror i := by fin_cases i <;> simp [sgn, coordMirror]

theorem sgn_speedMirror (i : Fin 4) : sgn ((![2, 1, 2, 2] : Fin 4 → ℕ) i) =
    speedMirror i := by fin_cases i <;> simp [sgn, speedMirror]

/-- The code of a product of two signs. -/
def codeMul (x y : ℕ) : ℕ := if x = y then 1 else 2

theorem sgn_codeMul {x y : ℕ} (hx : x = 1 ∨ x = 2) (hy : y = 1 ∨ y = 2) :
    sgn (codeMul x y) = sgn x * sgn y := by
  rcases hx with rfl | rfl <;> rcases hy with rfl | rfl <;> simp [sgn, codeMul]

/-- The codes of the states. -/
def mirrorCode (i : ℕ) : ℕ := [1, 2, 2, 2, 1, 1, 2, 1, 2, 2, 1, 2, 2].getD i 1

theorem sign_tables_matrices :
    (∀ i j : Fin 13, look mirrorTable (5200 + 13 * i + j) = codeMul (mirrorCode i) (mirrorCode j) ∧
      look reversalTable (5200 + 13 * i + j) = codeMul 2 (if i.1 < 9 ↔ j.1 < 9 then 1 else 2)) ∧
    (∀ (i : Fin 13) (j : Fin 4), look mirrorTable (5400 + 4 * i + j) =
        codeMul (mirrorCode i) (mirrorCode (9 + j)) ∧
      look reversalTable (5400 + 4 * i + j) = if i.1 < 9 then 2 else 1) ∧
    (∀ (i : Fin 18) (j : Fin 13), look mirrorTable (5500 + 13 * i + j) =
        codeMul (mirrorCode (i % 9)) (mirrorCode j) ∧
      look reversalTable (5500 + 13 * i + j) = if i.1 < 9 ↔ j.1 < 9 then 1 else 2) ∧
    (∀ (i : Fin 18) (j : Fin 4), look mirrorTable (5800 + 4 * i + j) =
        codeMul (mirrorCode (i % 9)) (mirrorCode (9 + j)) ∧
      look reversalTable (5800 + 4 * i + j) = if i.1 < 9 then 1 else 2) := by decide +kernel

theorem sgn_state (i : Fin 13) : sgn (mirrorCode i) = stateMirror i := by
  fin_cases i <;> simp [sgn, mirrorCode, stateMirror, coordMirror, speedMirror]

theorem sgn_torque (j : Fin 4) : sgn (mirrorCode (9 + j)) = speedMirror j := by
  fin_cases j <;> simp [sgn, mirrorCode, speedMirror]

theorem sgn_output (i : Fin 18) : sgn (mirrorCode (i % 9)) = outputMirror i := by
  fin_cases i <;> simp [sgn, mirrorCode, outputMirror, coordMirror]

theorem mirrorCode_cases (i : ℕ) : mirrorCode i = 1 ∨ mirrorCode i = 2 := by
  rcases lt_or_ge i 13 with h | h
  · have : ∀ i : Fin 13, mirrorCode i = 1 ∨ mirrorCode i = 2 := by decide
    exact this ⟨i, h⟩
  · left; unfold mirrorCode; rw [List.getD_eq_getElem?_getD, List.getElem?_eq_none (by simpa using h)]; rfl

/-- **C101.** The mirror image of a motion is a motion: for every configuration, reversing all
lateral coordinates, speeds and torques changes the matrices only by the corresponding signs.
`hpitch`: leaning and steering to the left gives the pitch of leaning and steering to the
right. -/
theorem C101_mirror (pitch : ℝ → ℝ → ℝ → ℝ → ℝ → ℝ → ℝ → ℝ) (junk junk' : ℕ → ℝ)
    (q : Fin 9 → ℝ) (u r : Fin 4 → ℝ) (p : Fin 36 → ℝ)
    (hpitch : pitch (-q 3) (-q 6) (p 34) (p 35) (p 1) (p 2) (p 3) =
      pitch (q 3) (q 6) (p 34) (p 35) (p 1) (p 2) (p 3)) :
    let R := evalLinear real pitch junk q u r p
    let R' := evalLinear real pitch junk' (fun i => coordMirror i * q i)
      (fun i => speedMirror i * u i) (fun i => speedMirror i * r i) p
    (∀ i j, R'.A i j = stateMirror i * stateMirror j * R.A i j) ∧
    (∀ i j, R'.B i j = stateMirror i * speedMirror j * R.B i j) ∧
    (∀ i j, R'.C i j = outputMirror i * stateMirror j * R.C i j) ∧
    (∀ i j, R'.D i j = outputMirror i * speedMirror j * R.D i j) := by
  intro R R'
  set m := start pitch junk q u r p with hm
  set m' := start pitch junk' (fun i => coordMirror i * q i)
      (fun i => speedMirror i * u i) (fun i => speedMirror i * r i) p with hm'
  have key := run_graded sign_action mirrorTable body body_mirror inputs assigned body_defined m m' (by
    obtain ⟨t1, t2, t3, t4, t5, -⟩ := sign_tables_inputs
    refine inputs_cases ?_ ?_ ?_ ?_ ?_
    · intro i _; rw [(t1 i).1, sgn_coordMirror, hm, hm', start_q, start_q]
    · intro i; rw [(t2 i).1, sgn_speedMirror, hm, hm', start_u, start_u]
    · intro i; rw [(t3 i).1, sgn_speedMirror, hm, hm', start_r, start_r]
    · intro i; rw [(t4 i).1, hm, hm', start_p, start_p]; simp [sgn]
    · rw [t5, hm, hm', start_lam, start_lam, ← hpitch]
      simp [sgn, coordMirror])
  obtain ⟨hA, hB, hC, hD⟩ := cells_assigned
  obtain ⟨tA, tB, tC, tD⟩ := sign_tables_matrices
  refine ⟨fun i j => ?_, fun i j => ?_, fun i j => ?_, fun i j => ?_⟩
  · rw [evalLinear_A, evalLinear_A, ← sgn_state i, ← sgn_state j,
      ← sgn_codeMul (mirrorCode_cases _) (mirrorCode_cases _), ← (tA i j).1]
    exact key _ (hA i j)
  · rw [evalLinear_B, evalLinear_B, ← sgn_state i, ← sgn_torque j,
      ← sgn_codeMul (mirrorCode_cases _) (mirrorCode_cases _), ← (tB i j).1]
    exact key _ (hB i j)
  · rw [evalLinear_C, evalLinear_C, ← sgn_output i, ← sgn_state j,
      ← sgn_codeMul (mirrorCode_cases _) (mirrorCode_cases _), ← (tC i j).1]
    exact key _ (hC i j)
  · rw [evalLinear_D, evalLinear_D, ← sgn_output i, ← sgn_torque j,
      ← sgn_codeMul (mirrorCode_cases _) (mirrorCode_cases _), ← (tD i j).1]
    exact key _ (hD i j)

/-- **C102.** A motion run backwards is a motion of the bicycle whose lean damping has the
opposite sign: the rate of every coordinate is reversed, the rate of every speed is not. -/
theorem C102_time_reversal (pitch : ℝ → ℝ → ℝ → ℝ → ℝ → ℝ → ℝ → ℝ) (junk junk' : ℕ → ℝ)
    (q : Fin 9 → ℝ) (u r : Fin 4 → ℝ) (p : Fin 36 → ℝ) :
    let R := evalLinear real pitch junk q u r p
    let R' := evalLinear real pitch junk' q (fun i => -u i) r (Function.update p 0 (-p 0))
    (∀ i j, R'.A i j = -(stateReversal i * stateReversal j * R.A i j)) ∧
    (∀ i j, R'.B i j = -(stateReversal i * R.B i j)) ∧
    (∀ i j, R'.C i j = outputReversal i * stateReversal j * R.C i j) ∧
    (∀ i j, R'.D i j = outputReversal i * R.D i j) := by
  intro R R'
  set m := start pitch junk q u r p with hm
  set m' := start pitch junk' q (fun i => -u i) r (Function.update p 0 (-p 0)) with hm'
  have key := run_graded sign_action reversalTable body body_reversal inputs assigned body_defined m m' (by
    obtain ⟨t1, t2, t3, t4, -, t5⟩ := sign_tables_inputs
    refine inputs_cases ?_ ?_ ?_ ?_ ?_
    · intro i _; rw [(t1 i).2, hm, hm', start_q, start_q]; simp [sgn]
    · intro i; rw [(t2 i).2, hm, hm', start_u, start_u]; simp [sgn]
    · intro i; rw [(t3 i).2, hm, hm', start_r, start_r]; simp [sgn]
    · intro i; rw [(t4 i).2, hm, hm', start_p, start_p]
      by_cases h : i = 0
      · subst h; simp [sgn]
      · simp [sgn, h]
    · rw [t5, hm, hm', start_lam, start_lam]
      have h : ∀ k : Fin 36, k ≠ 0 → Function.update p 0 (-p 0) k = p k := fun k hk => by simp [hk]
      rw [h 34 (by decide), h 35 (by decide), h 1 (by decide), h 2 (by decide), h 3 (by decide)]
      simp [sgn])
  obtain ⟨hA, hB, hC, hD⟩ := cells_assigned
  obtain ⟨tA, tB, tC, tD⟩ := sign_tables_matrices
  refine ⟨fun i j => ?_, fun i j => ?_, fun i j => ?_, fun i j => ?_⟩
  · have e : -(stateReversal i * stateReversal j) = sgn (look reversalTable (5200 + 13 * i + j)) := by
      rw [(tA i j).2]
      unfold stateReversal sgn codeMul
      by_cases h1 : i.1 < 9 <;> by_cases h2 : j.1 < 9 <;> simp [h1, h2]
    rw [evalLinear_A, evalLinear_A, ← neg_mul, e]
    exact key _ (hA i j)
  · have e : -stateReversal i = sgn (look reversalTable (5400 + 4 * i + j)) := by
      rw [(tB i j).2]
      unfold stateReversal sgn
      by_cases h1 : i.1 < 9 <;> simp [h1]
    rw [evalLinear_B, evalLinear_B, ← neg_mul, e]
    exact key _ (hB i j)
  · have e : outputReversal i * stateReversal j = sgn (look reversalTable (5500 + 13 * i + j)) := by
      rw [(tC i j).2]
      unfold stateReversal outputReversal sgn
      by_cases h1 : i.1 < 9 <;> by_cases h2 : j.1 < 9 <;> simp [h1, h2]
    rw [evalLinear_C, evalLinear_C, e]
    exact key _ (hC i j)
  · have e : outputReversal i = sgn (look reversalTable (5800 + 4 * i + j)) := by
      rw [(tD i j).2]
      unfold outputReversal sgn
      by_cases h1 : i.1 < 9 <;> simp [h1]
    rw [evalLinear_D, evalLinear_D, e]
    exact key _ (hD i j)

/-- **C102.** At rest and without lean damping no acceleration depends on a speed. -/
theorem C102_at_rest (pitch : ℝ → ℝ → ℝ → ℝ → ℝ → ℝ → ℝ → ℝ) (junk : ℕ → ℝ)
    (q : Fin 9 → ℝ) (r : Fin 4 → ℝ) (p : Fin 36 → ℝ) (hp : p 0 = 0) (i j : Fin 13)
    (hi : 9 ≤ i.1) (hj : 9 ≤ j.1) : (evalLinear real pitch junk q 0 r p).A i j = 0 := by
  have h := (C102_time_reversal pitch junk junk q 0 r p).1 i j
  have e1 : (fun i => -(0 : Fin 4 → ℝ) i) = 0 := by ext; simp
  have e2 : Function.update p 0 (-p 0) = p := by rw [hp, neg_zero, ← hp, Function.update_eq_self]
  rw [e1, e2] at h
  have e3 : stateReversal i = -1 := by simp [stateReversal]; omega
  have e4 : stateReversal j = -1 := by simp [stateReversal]; omega
  rw [e3, e4] at h
  linarith

/-- A pitch function as required by C100 and C101. -/
example : ∃ pitch : ℝ → ℝ → ℝ → ℝ → ℝ → ℝ → ℝ → ℝ, pitch 0 0 1 2 1 1 0 ≠ pitch 0 0 1 3 1 1 0 ∧
    (∀ L : ℝ, 0 < L → ∀ a b rf rr d1 d2 d3,
      pitch a b (L * rf) (L * rr) (L * d1) (L * d2) (L * d3) = pitch a b rf rr d1 d2 d3) ∧
    ∀ a b rf rr d1 d2 d3, pitch (-a) (-b) rf rr d1 d2 d3 = pitch a b rf rr d1 d2 d3 := by
  refine ⟨fun a b rf rr d1 d2 d3 => a ^ 2 + b ^ 2 + (rf - rr) / d1, by norm_num, ?_, ?_⟩
  · intro L hL a b rf rr d1 d2 d3
    change a ^ 2 + b ^ 2 + (L * rf - L * rr) / (L * d1) = _
    rw [← mul_sub, mul_div_mul_left _ _ hL.ne']
  · intro a b rf rr d1 d2 d3; ring_nf

/-! ## The shape of the matrices -/

/-- The part of the body that assigns the matrices. -/
def outs : List (ℕ × E) := part90 ++ part91 ++ part92 ++ part93

/-- The expression assigned to a cell. -/
def exprOf (l : ℕ) : Option E := (outs.find? fun s => Nat.beq s.1 l).map Prod.snd

theorem exprOf_mem {l : ℕ} {e : E} (h : exprOf l = some e) : (l, e) ∈ body := by
  obtain ⟨⟨l', e'⟩, hs, rfl⟩ := Option.map_eq_some_iff.mp h
  have h1 := List.mem_of_find?_eq_some hs
  have h2 : l' = l := by simpa using List.find?_some hs
  subst h2
  simp only [outs, List.mem_append] at h1
  rw [body, List.mem_flatten]
  rcases h1 with ((h1 | h1) | h1) | h1
  · exact ⟨part90, by simp [parts], h1⟩
  · exact ⟨part91, by simp [parts], h1⟩
  · exact ⟨part92, by simp [parts], h1⟩
  · exact ⟨part93, by simp [parts], h1⟩

theorem cell_eq {F : Type} (O : Arith F) (m : ℕ → F) {l : ℕ} {e : E} (h : exprOf l = some e) :
    run O body m l = e.val O (run O body m) :=
  run_equation O body inputs assigned body_defined m (l, e) (exprOf_mem h)

theorem shape_checks :
    (∀ (i : Fin 18) (j : Fin 4), exprOf (5800 + 4 * i + j) = some (.n 0)) ∧
    (∀ (i : Fin 9) (j : Fin 4), exprOf (5400 + 4 * i + j) = some (.n 0)) ∧
    (∀ (i : Fin 13), exprOf (5200 + 13 * i + 0) = some (.n 0) ∧ exprOf (5200 + 13 * i + 1) = some (.n 0)) ∧
    (∀ j : Fin 13, exprOf (5200 + 13 * 3 + j) = some (.n (if j = 9 then 1 else 0)) ∧
      exprOf (5200 + 13 * 5 + j) = some (.n (if j = 10 then 1 else 0)) ∧
      exprOf (5200 + 13 * 6 + j) = some (.n (if j = 11 then 1 else 0)) ∧
      exprOf (5200 + 13 * 8 + j) = some (.n (if j = 12 then 1 else 0))) ∧
    (∀ i : Fin 9, exprOf (5200 + 13 * i + 8) = some (.n 0) ∧
      (i ≠ 8 → exprOf (5200 + 13 * i + 12) = some (.n 0))) ∧
    (∀ (i : Fin 9) (j : Fin 13), exprOf (5500 + 13 * i + j) = some (.n (if i.1 = j.1 then 1 else 0))) ∧
    (∀ (i : Fin 9) (j : Fin 13), (exprOf (5200 + 13 * i + j)).isSome ∧
      exprOf (5500 + 13 * (9 + i) + j) = exprOf (5200 + 13 * i + j)) := by decide +kernel

/-- **C70.** Whatever the arithmetic: there is no feed-through (`D = 0`), the torques act on the
speeds only, the position of the bicycle has no influence, the rates of `q4, q6, q7, q9` are
the speeds `u4, u6, u7, u9`, the rider lean does not enter the kinematics, the first nine
outputs are the coordinates and the other nine are their rates. -/
theorem C70_shape {F : Type} (O : Arith F) (pitch : F → F → F → F → F → F → F → F) (junk : ℕ → F)
    (q : Fin 9 → F) (u r : Fin 4 → F) (p : Fin 36 → F) :
    let R := evalLinear O pitch junk q u r p
    (∀ i j, R.D i j = O.int 0) ∧
    (∀ i j, i.1 < 9 → R.B i j = O.int 0) ∧
    (∀ i, R.A i 0 = O.int 0 ∧ R.A i 1 = O.int 0) ∧
    (∀ j, R.A 3 j = O.int (if j = 9 then 1 else 0) ∧ R.A 5 j = O.int (if j = 10 then 1 else 0) ∧
      R.A 6 j = O.int (if j = 11 then 1 else 0) ∧ R.A 8 j = O.int (if j = 12 then 1 else 0)) ∧
    (∀ i : Fin 13, i.1 < 9 → R.A i 8 = O.int 0 ∧ (i ≠ 8 → R.A i 12 = O.int 0)) ∧
    (∀ (i : Fin 18) (j : Fin 13), i.1 < 9 → R.C i j = O.int (if i.1 = j.1 then 1 else 0)) ∧
    (∀ (i : Fin 9) (j : Fin 13), R.C (Fin.natAdd 9 i) j = R.A (Fin.castAdd 4 i) j) := by
  intro R
  obtain ⟨h1, h2, h3, h4, h5, h6, h7⟩ := shape_checks
  refine ⟨fun i j => ?_, fun i j hi => ?_, fun i => ⟨?_, ?_⟩, fun j => ⟨?_, ?_, ?_, ?_⟩,
    fun i hi => ⟨?_, fun h8 => ?_⟩, fun i j hi => ?_, fun i j => ?_⟩
  · rw [evalLinear_D]; exact cell_eq O _ (h1 i j)
  · rw [evalLinear_B]; exact cell_eq O _ (h2 ⟨i, hi⟩ j)
  · rw [evalLinear_A]; exact cell_eq O _ (h3 i).1
  · rw [evalLinear_A]; exact cell_eq O _ (h3 i).2
  · rw [evalLinear_A]; exact cell_eq O _ (h4 j).1
  · rw [evalLinear_A]; exact cell_eq O _ (h4 j).2.1
  · rw [evalLinear_A]; exact cell_eq O _ (h4 j).2.2.1
  · rw [evalLinear_A]; exact cell_eq O _ (h4 j).2.2.2
  · rw [evalLinear_A]; exact cell_eq O _ (h5 ⟨i, hi⟩).1
  · rw [evalLinear_A]; exact cell_eq O _ ((h5 ⟨i, hi⟩).2 fun h => h8 (Fin.ext (Fin.mk.inj h)))
  · rw [evalLinear_C]; exact cell_eq O _ (h6 ⟨i, hi⟩ j)
  · obtain ⟨hs, he⟩ := h7 i j
    obtain ⟨e, hA⟩ := Option.isSome_iff_exists.mp hs
    rw [evalLinear_C, evalLinear_A]
    exact (cell_eq O _ (he.trans hA)).trans (cell_eq O _ hA).symm

/-! ## The upright configuration -/

/-- What is known of the arguments. -/
theorem upright_inputs :
    (∀ i : Fin 9, look uprightTable (5031 + i) = if i = 4 then 0 else 1) ∧
    (∀ i : Fin 4, look uprightTable (5040 + i) = if i = 1 then 0 else 1) ∧
    (∀ i : Fin 4, look uprightTable (5044 + i) = 1) ∧
    (∀ i : Fin 36, look uprightTable (5048 + i) = 0) ∧ look uprightTable 5084 = 0 := by decide +kernel

/-- The coordinates and speeds that change sign in the mirror. -/
def lateral (i : ℕ) : Bool := [1, 2, 3, 6, 8, 9, 11, 12].contains i

/-- What is known of the matrices. -/
theorem upright_matrices :
    (∀ i j : Fin 13, lateral i ≠ lateral j → look uprightTable (5200 + 13 * i + j) = 1) ∧
    (∀ (i : Fin 13) (j : Fin 4), (lateral i = true ↔ j = 1) → look uprightTable (5400 + 4 * i + j) = 1) ∧
    (∀ j : Fin 13, look uprightTable (5200 + 13 * 4 + j) = 1) ∧
    (∀ i : Fin 13, look uprightTable (5200 + 13 * i + 8) = 1 ∨ i = 9 ∨ i = 11 ∨ i = 12) ∧
    (∀ j : Fin 13, 9 ≤ j.1 → look uprightTable (5200 + 13 * 10 + j) = 1) := by decide +kernel

/-- **C103.** Riding upright at any speed and pitch: lateral motion (lateral position, yaw, roll,
steer, lean and their rates) and forward motion do not influence each other, the roll, steer
and lean torques have no influence on the forward motion nor the wheel torque on the lateral
motion; the pitch stays constant, so that leaving out its row and column loses nothing; and
the speed of the rear wheel does not depend on any speed. -/
theorem C103_upright (pitch : ℝ → ℝ → ℝ → ℝ → ℝ → ℝ → ℝ → ℝ) (junk : ℕ → ℝ) (θ Ω : ℝ) (p : Fin 36 → ℝ) :
    let R := evalLinear real pitch junk ![0, 0, 0, 0, θ, 0, 0, 0, 0] ![0, Ω, 0, 0] 0 p
    (∀ i j : Fin 13, stateMirror i ≠ stateMirror j → R.A i j = 0) ∧
    (∀ (i : Fin 13) (j : Fin 4), stateMirror i ≠ speedMirror j → R.B i j = 0) ∧
    (∀ j, R.A 4 j = 0) ∧ (∀ j, R.B 4 j = 0) ∧ (∀ j : Fin 13, 9 ≤ j.1 → R.A 10 j = 0) := by
  intro R
  have key := run_known uprightTable body body_upright inputs assigned body_defined
    (start pitch junk ![0, 0, 0, 0, θ, 0, 0, 0, 0] ![0, Ω, 0, 0] 0 p) (by
    obtain ⟨t1, t2, t3, t4, t5⟩ := upright_inputs
    refine inputs_cases ?_ ?_ ?_ ?_ ?_
    · intro i _; rw [t1 i, start_q]; fin_cases i <;> simp [Known]
    · intro i; rw [t2 i, start_u]; fin_cases i <;> simp [Known]
    · intro i; rw [t3 i, start_r]; simp [Known]
    · intro i; rw [t4 i]; simp [Known]
    · rw [t5]; simp [Known])
  obtain ⟨hA, hB, hC, hD⟩ := cells_assigned
  obtain ⟨t1, t2, t3, t4, t5⟩ := upright_matrices
  have hs : ∀ i : Fin 13, stateMirror i = if lateral i then -1 else 1 := by
    intro i; fin_cases i <;> simp [stateMirror, lateral, coordMirror, speedMirror]
  have ht : ∀ j : Fin 4, speedMirror j = if j = 1 then 1 else -1 := by
    intro j; fin_cases j <;> simp [speedMirror]
  refine ⟨fun i j h => ?_, fun i j h => ?_, fun j => ?_, fun j => ?_, fun j h => ?_⟩
  · rw [evalLinear_A]
    refine (key _ (hA i j)).1 (t1 i j fun e => h ?_)
    rw [hs, hs, e]
  · rw [evalLinear_B]
    refine (key _ (hB i j)).1 (t2 i j ?_)
    rw [hs, ht] at h
    by_cases h1 : lateral i = true <;> by_cases h2 : j = 1 <;> simp_all
  · rw [evalLinear_A]; exact (key _ (hA 4 j)).1 (t3 j)
  · exact (C70_shape real pitch junk _ _ _ p).2.1 4 j (by decide) |>.trans (by simp [real])
  · rw [evalLinear_A]; exact (key _ (hA 10 j)).1 (t5 j h)

end BP.EL
