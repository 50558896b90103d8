import Verif.Lemmas.InvarianceChecks
import Verif.Props.Invariance

/-!
# Tables that give cells as polynomials in sines and cosines
-/

set_option linter.unusedSimpArgs false

namespace BP.EL

/-- The check of a statement. -/
def tableOk (ps : List (ℕ × ℕ)) (T : Turn) (s : ℕ × E) : Bool :=
  match T.V.look s.1 with
  | none => true
  | some (.atom p) => primeOf ps p s.1
  | some (.trans q k) => qeqO (s.2.tpoly T) (q, k)
  | some _ => false

/-- The entry for a cell without statement. -/
def tableInput (ps : List (ℕ × ℕ)) (T : Turn) (l : ℕ) : Bool :=
  match T.V.look l with
  | none => true
  | some (.atom p) => primeOf ps p l
  | some _ => false

/-- Memories that fit the statements. -/
def Agrees (m : ℕ → ℝ) : Prop := ∀ s ∈ body, m s.1 = s.2.val real m

/-- The primes, the angles, and the arguments. -/
def tableSetup (ps : List (ℕ × ℕ)) (T : Turn) (more : List ℕ) : Bool :=
  ((Nat.beq T.rot 5033).and (primesOk ps)).and ((T.angles.all (angleOk ps)).and
    ((List.range' 5033 52 ++ more).all (tableInput ps T)))

/-- The table is right. -/
theorem table_cells {m : ℕ → ℝ} {ps : List (ℕ × ℕ)} {T : Turn} {more : List ℕ} (setup : tableSetup ps T more = true)
    (ok : rateBody.all (tableOk ps T) = true) (heq : Agrees m) :
    Pyth (tvars ps m (m 5033)) T.angles ∧
    (∀ l, Nat.testBit rateMarks l = true → ∀ q, jval T.V l = some q → m l = qeval (tvars ps m (m 5033)) q) ∧
    ∀ l ∈ more, ∀ q, jval T.V l = some q → m l = qeval (tvars ps m (m 5033)) q := by
  simp only [tableSetup, Bool.and_eq_true, Nat.beq_eq] at setup
  obtain ⟨⟨hrot, hp⟩, ha, hi⟩ := setup
  obtain ⟨x, ex⟩ : ∃ x, x = tvars ps m (m 5033) := ⟨_, rfl⟩
  rw [← ex]
  have x2 : x 2 = Real.cos (m 5033) := by rw [ex]; simp [tvars]
  have x3 : x 3 = Real.sin (m 5033) := by rw [ex]; simp [tvars]
  have x7 : x 7 = (m 494)⁻¹ := by rw [ex]; simp [tvars]
  have hps : ∀ t ∈ ps, mono x t.1 = m t.2 := by
    intro t ht
    have h := List.all_eq_true.mp hp t ht
    simp only [Bool.and_eq_true, Nat.beq_eq] at h
    obtain ⟨hpr, n2, n3, n7⟩ := primeOther_prime h.1
    rw [mono_prime _ hpr, ex]
    simp [tvars, n2, n3, n7, h.2]
  have hat : ∀ p l, primeOf ps p l = true → qeval x (qvar p) = m l := by
    intro p l h
    simp only [primeOf, Bool.and_eq_true, Nat.beq_eq, List.any_eq_true] at h
    obtain ⟨t, ht, rfl, rfl⟩ := h
    simp [qeval, qvar, hps t ht]
  have hpyth : Pyth x T.angles := by
    intro a ha'
    have h := List.all_eq_true.mp ha a ha'
    simp only [angleOk, Bool.or_eq_true, Bool.and_eq_true, Nat.beq_eq, List.any_eq_true] at h
    rw [mono_mul, mono_mul]
    rcases h with ⟨e1, e2⟩ | ⟨t, ht, h⟩
    · rw [e1, e2, mono_prime _ Nat.prime_two, mono_prime _ Nat.prime_three, x2, x3]
      linear_combination Real.sin_sq_add_cos_sq (m 5033)
    · simp only [angleStmts, primeOf, Bool.and_eq_true, Nat.beq_eq, List.any_eq_true] at h
      obtain ⟨⟨⟨t1, h1, a1, b1⟩, ⟨t2, h2, a2, b2⟩⟩, ⟨sc, hsc, hc⟩, ⟨ss, hss, hs⟩⟩ := h
      rw [← a1, ← a2, hps t1 h1, hps t2 h2, b1, b2]
      have ec : m t.2.1 = Real.cos (m t.1) := by
        have e := heq sc hsc
        unfold isCos at hc
        split at hc
        · simp only [Bool.and_eq_true, Nat.beq_eq] at hc
          obtain ⟨rfl, rfl⟩ := hc
          simpa [E.val, real] using e
        · cases hc
      have es : m t.2.2 = Real.sin (m t.1) := by
        have e := heq ss hss
        unfold isSin at hs
        split at hs
        · simp only [Bool.and_eq_true, Nat.beq_eq] at hs
          obtain ⟨rfl, rfl⟩ := hs
          simpa [E.val, real] using e
        · cases hs
      rw [ec, es]
      linear_combination Real.sin_sq_add_cos_sq (m t.1)
  have input : ∀ l ∈ List.range' 5033 52 ++ more, ∀ q, jval T.V l = some q → m l = qeval x q := by
    intro l hl q hq
    have h := List.all_eq_true.mp hi l hl
    unfold tableInput at h
    unfold jval at hq
    split at h
    · rename_i e; rw [e] at hq; cases hq
    · rename_i p e
      rw [e] at hq
      simp only [Option.some.injEq, JEnt.poly] at hq
      subst hq
      exact (hat p _ h).symm
    · cases h
  refine ⟨hpyth, run_pred (fun l => ∀ q, jval T.V l = some q → m l = qeval x q) rateBody inputs rateMarks
    jac_rate_defined ?_ ?_, fun l hl => input l (List.mem_append_right _ hl)⟩
  · intro s hs d hd ih q hq
    have h := List.all_eq_true.mp ok s hs
    unfold tableOk at h
    unfold jval at hq
    split at h
    · rename_i e; rw [e] at hq; cases hq
    · rename_i p e
      rw [e] at hq
      simp only [Option.some.injEq, JEnt.poly] at hq
      subst hq
      exact (hat p _ h).symm
    · rename_i q' k e
      rw [e] at hq
      simp only [Option.some.injEq, JEnt.poly] at hq
      subst hq
      obtain ⟨p', h1, h2⟩ := qeqO_some h x
      rw [heq s (List.mem_of_mem_take hs), ← h2]
      exact tpoly_sound hpyth (by rw [hrot]; exact x2.symm) (by rw [hrot]; exact x3.symm) d (fun _ => x7) ih s.2 hd _ h1
    · cases h
  · intro l hl
    have hl' := (inputs_iff l).mp hl
    exact input l (List.mem_append_left _ (by rw [List.mem_range'_1]; omega))

end BP.EL
