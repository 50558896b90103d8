import Verif.Lemmas.StateRounding

/-!
# Eigenvalues of a matrix near the computed state matrix
-/

set_option linter.unusedSimpArgs false

namespace BP

open Matrix Spec

/-! ## Blocks -/

/-- The matrix of four blocks, for the proofs. -/
def block4 (a b c d : Mat2 ℝ) : Matrix (Fin 4) (Fin 4) ℝ :=
  !![a 0 0, a 0 1, b 0 0, b 0 1;
     a 1 0, a 1 1, b 1 0, b 1 1;
     c 0 0, c 0 1, d 0 0, d 0 1;
     c 1 0, c 1 1, d 1 0, d 1 1]

theorem block4_mul (a b c d a' b' c' d' : Mat2 ℝ) : block4 a b c d * block4 a' b' c' d' =
    block4 (a * a' + b * c') (a * b' + b * d') (c * a' + d * c') (c * b' + d * d') := by
  ext i j
  fin_cases i <;> fin_cases j <;> simp [block4, Matrix.mul_apply, Fin.sum_univ_four, Fin.sum_univ_two, add_assoc]

theorem block4_one : block4 1 0 0 1 = 1 := by
  ext i j
  fin_cases i <;> fin_cases j <;> simp [block4]

theorem block4_add (a b c d a' b' c' d' : Mat2 ℝ) : block4 a b c d + block4 a' b' c' d' =
    block4 (a + a') (b + b') (c + c') (d + d') := by
  ext i j
  fin_cases i <;> fin_cases j <;> simp [block4]

theorem exists_block4 (E : Matrix (Fin 4) (Fin 4) ℝ) : ∃ a b c d : Mat2 ℝ, E = block4 a b c d ∧
    ∀ η, (∀ i j, |E i j| ≤ η) → (∀ i j, |a i j| ≤ η) ∧ (∀ i j, |b i j| ≤ η) ∧ (∀ i j, |c i j| ≤ η) ∧ ∀ i j, |d i j| ≤ η := by
  refine ⟨!![E 0 0, E 0 1; E 1 0, E 1 1], !![E 0 2, E 0 3; E 1 2, E 1 3], !![E 2 0, E 2 1; E 3 0, E 3 1],
    !![E 2 2, E 2 3; E 3 2, E 3 3], ?_, fun η h => ⟨?_, ?_, ?_, ?_⟩⟩
  · ext i j
    fin_cases i <;> fin_cases j <;> rfl
  all_goals
    intro i j
    fin_cases i <;> fin_cases j <;> exact h _ _

theorem abA_block (M C1 K0 K2 : Mat2 ℝ) (v g : ℝ) : abA M C1 K0 K2 v g = block4 0 1 (a21 M K0 K2 v g) (a22 M C1 v) := by
  ext i j
  fin_cases i <;> fin_cases j <;> simp [abA, block4]

theorem toC_mul {n : Type} [Fintype n] (A B : Matrix n n ℝ) : toC (A * B) = toC A * toC B := by
  ext i j
  simp [toC, Matrix.mul_apply]

theorem toC_one' : toC (1 : Matrix (Fin 4) (Fin 4) ℝ) = 1 := by
  ext i j
  simp only [toC, Matrix.map_apply, Matrix.one_apply]
  split <;> simp

/-- Similar matrices have the same eigenvalues. -/
theorem eigenvalue_similar (A T S : Matrix (Fin 4) (Fin 4) ℝ) (hTS : T * S = 1) (hST : S * T = 1) (l : ℂ) :
    IsEigenvalue (toC A) l ↔ IsEigenvalue (toC (T * A * S)) l := by
  have h1 : toC T * toC S = 1 := by rw [← toC_mul, hTS, toC_one']
  have h2 : toC S * toC T = 1 := by rw [← toC_mul, hST, toC_one']
  constructor
  · rintro ⟨x, hx, e⟩
    refine ⟨toC T *ᵥ x, fun h0 => hx ?_, ?_⟩
    · have := congrArg (fun y => toC S *ᵥ y) h0
      simpa [Matrix.mulVec_mulVec, h2] using this
    · rw [toC_mul, toC_mul, Matrix.mulVec_mulVec, Matrix.mul_assoc, Matrix.mul_assoc, h2, Matrix.mul_one,
        ← Matrix.mulVec_mulVec, e, Matrix.mulVec_smul]
  · rintro ⟨x, hx, e⟩
    refine ⟨toC S *ᵥ x, fun h0 => hx ?_, ?_⟩
    · have := congrArg (fun y => toC T *ᵥ y) h0
      simpa [Matrix.mulVec_mulVec, h1] using this
    · rw [toC_mul, toC_mul] at e
      have := congrArg (fun y => toC S *ᵥ y) e
      simp only [Matrix.mulVec_mulVec, Matrix.mulVec_smul] at this
      rw [← Matrix.mul_assoc, ← Matrix.mul_assoc, h2, Matrix.one_mul] at this
      rw [Matrix.mulVec_mulVec]
      exact this

/-! ## Sizes of the entries -/

/-- The entries are at most `x`, for the proofs. -/
def Bd (x : ℝ) (X : Mat2 ℝ) : Prop := ∀ i j, |X i j| ≤ x

namespace Bd

theorem add {x y : ℝ} {X Y : Mat2 ℝ} (h : Bd x X) (h' : Bd y Y) : Bd (x + y) (X + Y) := fun i j =>
  (abs_add_le _ _).trans (add_le_add (h i j) (h' i j))

theorem neg {x : ℝ} {X : Mat2 ℝ} (h : Bd x X) : Bd x (-X) := fun i j => by
  rw [Matrix.neg_apply, abs_neg]; exact h i j

theorem sub {x y : ℝ} {X Y : Mat2 ℝ} (h : Bd x X) (h' : Bd y Y) : Bd (x + y) (X - Y) := by
  rw [sub_eq_add_neg]; exact h.add h'.neg

theorem nonneg {x : ℝ} {X : Mat2 ℝ} (h : Bd x X) : 0 ≤ x := (abs_nonneg _).trans (h 0 0)

theorem mul {x y : ℝ} {X Y : Mat2 ℝ} (h : Bd x X) (h' : Bd y Y) : Bd (2 * x * y) (X * Y) := fun i j => by
  rw [Matrix.mul_apply, Fin.sum_univ_two]
  have t : ∀ l, |X i l * Y l j| ≤ x * y := fun l => by
    rw [abs_mul]; exact mul_le_mul (h i l) (h' l j) (abs_nonneg _) h.nonneg
  have := (abs_add_le (X i 0 * Y 0 j) (X i 1 * Y 1 j)).trans (add_le_add (t 0) (t 1))
  linarith

theorem mono {x y : ℝ} {X : Mat2 ℝ} (h : Bd x X) (hxy : x ≤ y) : Bd y X := fun i j => (h i j).trans hxy

theorem one : Bd 1 1 := fun i j => by
  rw [Matrix.one_apply]; split <;> simp

end Bd

/-- The inverse of a matrix near 1. -/
theorem inverse_near_one (b : Mat2 ℝ) (η : ℝ) (hb : Bd η b) (hη : η ≤ 1 / 8) :
    ∃ W : Mat2 ℝ, (1 + b) * W = 1 ∧ W * (1 + b) = 1 ∧ Bd 2 W ∧ Bd (4 * η) (W - 1) := by
  have h0 := hb.nonneg
  have hdet : (1 + b).det ≠ 0 := by
    rw [det_fin_two]
    simp only [Matrix.add_apply, Matrix.one_apply_eq, Matrix.one_apply_ne (show (0 : Fin 2) ≠ 1 by decide),
      Matrix.one_apply_ne (show (1 : Fin 2) ≠ 0 by decide), zero_add]
    have h00 := (abs_le.1 (hb 0 0)).1
    have h11 := (abs_le.1 (hb 1 1)).1
    have h2 : |b 0 1 * b 1 0| ≤ 1 / 8 * (1 / 8) := by
      rw [abs_mul]
      exact mul_le_mul ((hb 0 1).trans hη) ((hb 1 0).trans hη) (abs_nonneg _) (by norm_num)
    have h3 : (7 / 8 : ℝ) * (7 / 8) ≤ (1 + b 0 0) * (1 + b 1 1) :=
      mul_le_mul (by linarith) (by linarith) (by norm_num) (by linarith)
    have h4 := (abs_le.1 h2).2
    intro h
    linarith
  refine ⟨invM (1 + b), invM_mul ℝ _ hdet, mul_invM ℝ _ hdet, ?_⟩
  set W := invM (1 + b) with hW
  have hNW : (1 + b) * W = 1 := invM_mul ℝ _ hdet
  have e : W - 1 = -(b * W) := by
    rw [Matrix.add_mul, Matrix.one_mul] at hNW
    rw [← hNW]
    abel
  have hWe : W = 1 + -(b * W) := by rw [← e]; abel
  obtain ⟨ω, hω, p, q, hpq⟩ : ∃ ω, Bd ω W ∧ ∃ p q, |W p q| = ω := by
    obtain ⟨t, -, ht⟩ := Finset.exists_max_image (Finset.univ : Finset (Fin 2 × Fin 2)) (fun t => |W t.1 t.2|) ⟨(0, 0), by simp⟩
    exact ⟨|W t.1 t.2|, fun i j => ht (i, j) (by simp), t.1, t.2, rfl⟩
  have h1 := Bd.one.add (hb.mul hω).neg
  rw [← hWe] at h1
  have h2 := h1 p q
  rw [hpq] at h2
  have h3 : η * ω ≤ 1 / 8 * ω := mul_le_mul_of_nonneg_right hη hω.nonneg
  have h4 : ω ≤ 2 := by linarith
  refine ⟨hω.mono h4, ?_⟩
  rw [e]
  exact (hb.mul hω).neg.mono (by have := mul_le_mul_of_nonneg_left h4 h0; linarith)

/-- A matrix near a state matrix has the eigenvalues of a state matrix nearby. -/
theorem state_of_near (p q : Mat2 ℝ) (E : Matrix (Fin 4) (Fin 4) ℝ) (η x : ℝ) (hE : ∀ i j, |E i j| ≤ η) (hη : η ≤ 1 / 8)
    (hx : 1 ≤ x) (hp : Bd x p) (hq : Bd x q) :
    ∃ P Q : Mat2 ℝ, Bd (26 * η * x) (P - p) ∧ Bd (26 * η * x) (Q - q) ∧
      ∀ l, IsEigenvalue (toC (block4 0 1 p q + E)) l ↔ IsEigenvalue (toC (block4 0 1 P Q)) l := by
  obtain ⟨a, b, c, d, e, hb⟩ := exists_block4 E
  obtain ⟨ha, hb, hc, hd⟩ : Bd η a ∧ Bd η b ∧ Bd η c ∧ Bd η d := hb η hE
  obtain ⟨W, hNW, hWN, hW, hW1⟩ := inverse_near_one b η hb hη
  have h0 : 0 ≤ η := (abs_nonneg _).trans (hE 0 0)
  set N := 1 + b with hN
  have hNb : Bd (1 + η) N := Bd.one.add hb
  have hpc : Bd (x + η) (p + c) := hp.add hc
  have hqd : Bd (x + η) (q + d) := hq.add hd
  have hxη : x + η ≤ 9 / 8 * x := by linarith
  have hηx : 0 ≤ η * x := mul_nonneg h0 (by linarith)
  have k1 : η ≤ η * x := le_mul_of_one_le_right h0 hx
  have k2 : η * (x + η) ≤ 9 / 8 * (η * x) := by have := mul_le_mul_of_nonneg_left hxη h0; linarith
  have k3 : (1 + η) * (η * (x + η)) ≤ 9 / 8 * (9 / 8 * (η * x)) :=
    mul_le_mul (by linarith) k2 (mul_nonneg h0 (by linarith)) (by norm_num)
  refine ⟨N * (p + c) - N * ((q + d) * (W * a)), a + N * ((q + d) * W), ?_, ?_, fun l => ?_⟩
  · have e1 : N * (p + c) - N * ((q + d) * (W * a)) - p = c + b * (p + c) - N * ((q + d) * (W * a)) := by
      rw [hN, Matrix.add_mul, Matrix.one_mul]; abel
    rw [e1]
    refine ((hc.add (hb.mul hpc)).sub (hNb.mul (hqd.mul (hW.mul ha)))).mono ?_
    nlinarith [k1, k2, k3]
  · have e1 : a + N * ((q + d) * W) - q = a + d + b * (q + d) + N * ((q + d) * (W - 1)) := by
      rw [Matrix.mul_sub, Matrix.mul_one, Matrix.mul_sub]
      rw [show N * (q + d) = q + d + b * (q + d) by rw [hN, Matrix.add_mul, Matrix.one_mul]]
      abel
    rw [e1]
    refine (((ha.add hd).add (hb.mul hqd)).add (hNb.mul (hqd.mul hW1))).mono ?_
    nlinarith [k1, k2, k3]
  · have hTS : block4 1 0 a N * block4 1 0 (-(W * a)) W = 1 := by
      rw [block4_mul, ← block4_one]
      congr 1
      · simp
      · simp
      · rw [Matrix.mul_one, Matrix.mul_neg, ← Matrix.mul_assoc, hNW, Matrix.one_mul, add_neg_cancel]
      · rw [Matrix.mul_zero, zero_add, hNW]
    have hST : block4 1 0 (-(W * a)) W * block4 1 0 a N = 1 := by
      rw [block4_mul, ← block4_one]
      congr 1
      · simp
      · simp
      · rw [Matrix.mul_one, neg_add_cancel]
      · rw [Matrix.mul_zero, zero_add, hWN]
    rw [eigenvalue_similar _ _ _ hTS hST l]
    have e2 : block4 1 0 a N * (block4 0 1 p q + E) * block4 1 0 (-(W * a)) W =
        block4 0 1 (N * (p + c) - N * ((q + d) * (W * a))) (a + N * ((q + d) * W)) := by
      rw [e, block4_add, block4_mul, block4_mul, ← hN]
      have hNWa : N * (W * a) = a := by rw [← Matrix.mul_assoc, hNW, Matrix.one_mul]
      congr 1
      · simp only [Matrix.one_mul, Matrix.zero_mul, add_zero, zero_add, Matrix.mul_one, Matrix.mul_neg, hNWa, add_neg_cancel]
      · simp only [Matrix.one_mul, Matrix.zero_mul, add_zero, zero_add, Matrix.mul_one, Matrix.mul_zero, hNW]
      · simp only [zero_add, Matrix.mul_one, Matrix.mul_neg, Matrix.add_mul, Matrix.mul_assoc, hNWa]
        abel
      · simp only [zero_add, Matrix.mul_zero, Matrix.add_mul, Matrix.mul_assoc, hNW, Matrix.mul_one]
    rw [e2]

/-! ## Ranges -/

/-- What is checked for the errors of the eigenvalues, for the proofs: `η` bounds the error of the matrix, `x` its entries, `V` and `u`
the speed, `r'` the errors of the canonical matrices. -/
def StableCheck.Entries.eigOk (E : StableCheck.Entries) (G : Box) (r r' η x u V : ℚ) : Bool :=
  let L := E.loose r
  let D := (StableCheck.mD E).lo
  let T0 := G.sup * max L.K00.sup L.K01.sup + V * V * L.L01.sup
  let T1 := G.sup * max L.K10.sup L.K11.sup + V * V * L.L11.sup
  let U0 := V * max L.C00.sup L.C01.sup
  let U1 := V * max L.C10.sup L.C11.sup
  decide (η ≤ 1 / 8) && decide (1 ≤ x) && decide (0 < u) && decide (u ≤ G.lo) && decide (0 < D) &&
  decide (E.M11.sup * max T0 U0 + E.M01.sup * max T1 U1 ≤ x * D) &&
  decide (E.M01.sup * max T0 U0 + E.M00.sup * max T1 U1 ≤ x * D) &&
  decide (r + (E.M00.sup + E.M01.sup + E.M11.sup) * (26 * η * x) / u ≤ r')

theorem Box.Has.wider {b : Box} {r r' : ℚ} {x y s : ℝ} (h : (b.widen r).Has x) (k : |y - x| ≤ s) (hs : (r : ℝ) + s ≤ r') :
    (b.widen r').Has y := by
  obtain ⟨h1, h2⟩ := h
  rw [abs_le] at k
  simp only [Box.widen, Rat.cast_sub, Rat.cast_add] at h1 h2
  constructor
  · simp only [Box.widen, Rat.cast_sub]; linarith [k.1]
  · simp only [Box.widen, Rat.cast_add]; linarith [k.2]

/-- The inverse times a matrix with bounded rows. -/
theorem inv_mul_bound (M X : Mat2 ℝ) (z : M 1 0 = M 0 1) (m00 m01 m11 D x T0 T1 : ℝ) (h00 : |M 0 0| ≤ m00) (h01 : |M 0 1| ≤ m01)
    (h11 : |M 1 1| ≤ m11) (hD : 0 < D) (hd : D ≤ M 0 0 * M 1 1 - M 0 1 * M 1 0) (hX0 : ∀ j, |X 0 j| ≤ T0)
    (hX1 : ∀ j, |X 1 j| ≤ T1) (c0 : m11 * T0 + m01 * T1 ≤ x * D) (c1 : m01 * T0 + m00 * T1 ≤ x * D) :
    Bd x (-(invM M * X)) := by
  set d := M 0 0 * M 1 1 - M 0 1 * M 1 0 with hd'
  have hd0 : 0 < d := hD.trans_le hd
  have hi : ∀ y b : ℝ, |y| ≤ b → |1 / d * y| ≤ b / D := fun y b h => by
    have hb := (abs_nonneg _).trans h
    rw [abs_mul, abs_of_pos (by positivity : 0 < 1 / d), div_mul_eq_mul_div, one_mul]
    exact div_le_div₀ hb h hD hd
  have i00 : |invM M 0 0| ≤ m11 / D := hi (M 1 1) m11 h11
  have i01 : |invM M 0 1| ≤ m01 / D := hi (-M 0 1) m01 (by rwa [abs_neg])
  have i10 : |invM M 1 0| ≤ m01 / D := hi (-M 1 0) m01 (by rwa [abs_neg, z])
  have i11 : |invM M 1 1| ≤ m00 / D := hi (M 0 0) m00 h00
  have key : ∀ (i j : Fin 2) (u w : ℝ), |invM M i 0| ≤ u / D → |invM M i 1| ≤ w / D → u * T0 + w * T1 ≤ x * D →
      |(-(invM M * X)) i j| ≤ x := fun i j u w hu hw hc => by
    rw [Matrix.neg_apply, abs_neg, Matrix.mul_apply, Fin.sum_univ_two]
    refine (abs_add_le _ _).trans ?_
    rw [abs_mul, abs_mul]
    have t0 := mul_le_mul hu (hX0 j) (abs_nonneg _) ((abs_nonneg _).trans hu)
    have t1 := mul_le_mul hw (hX1 j) (abs_nonneg _) ((abs_nonneg _).trans hw)
    have e : u / D * T0 + w / D * T1 = (u * T0 + w * T1) / D := by field_simp
    have h1 : (u * T0 + w * T1) / D ≤ x := by rwa [div_le_iff₀ hD]
    linarith
  intro i j
  fin_cases i
  · exact key 0 j m11 m01 i00 i01 c0
  · exact key 1 j m01 m00 i10 i11 c1

/-- The range of the speeds for the eigenvalues of a matrix near the computed state matrix. -/
theorem eig_range {O : Machine} (hO : RoundsRel O) {E : StableCheck.Entries} {c : Canon} (H : E.Hold c) {r r' η x u V : ℚ}
    (hr : E.conditioned r = true) {G : Box} {g : ℝ} (hG : G.Has g) (ho : E.eigOk G r r' η x u V = true) {lo hi lo' hi' : ℚ}
    (hs : (E.loose r').signs G lo hi lo' hi' = true) (v : ℝ) (hv : (u : ℝ) ≤ v) (hV : v ≤ V) :
    (∀ i j, |machineA O c v g i j| ≤ x) ∧ ∀ F : Matrix (Fin 4) (Fin 4) ℝ, (∀ i j, |F i j| ≤ η) →
    ((hi : ℝ) ≤ v → v ≤ lo' → ∀ l : ℂ, IsEigenvalue (toC (machineA O c v g + F)) l → l.re < 0) ∧
    (v ≤ lo ∨ (hi' : ℝ) ≤ v → ∃ l : ℂ, IsEigenvalue (toC (machineA O c v g + F)) l ∧ 0 ≤ l.re) := by
  obtain ⟨c', e1, e2, H'⟩ := nearby_hold hO H hr v g
  simp only [StableCheck.Entries.eigOk, Bool.and_eq_true, decide_eq_true_eq] at ho
  obtain ⟨⟨⟨⟨⟨⟨⟨o1, o2⟩, o0⟩, o3⟩, o4⟩, o5⟩, o6⟩, o7⟩ := ho
  set L := E.loose r with hL
  set T0 := G.sup * max L.K00.sup L.K01.sup + V * V * L.L01.sup with hT0
  set T1 := G.sup * max L.K10.sup L.K11.sup + V * V * L.L11.sup with hT1
  set U0 := V * max L.C00.sup L.C01.sup with hU0
  set U1 := V * max L.C10.sup L.C11.sup with hU1
  set D := (StableCheck.mD E).lo with hD
  have o1' : (η : ℝ) ≤ 1 / 8 := by
    have := (Rat.cast_le (K := ℝ)).2 o1
    push_cast at this
    exact this
  have o2' : (1 : ℝ) ≤ x := by exact_mod_cast o2
  have o0' : (0 : ℝ) < u := by exact_mod_cast o0
  have o3' : (u : ℝ) ≤ g := by
    have : (u : ℝ) ≤ G.lo := by exact_mod_cast o3
    exact this.trans hG.1
  have o4' : (0 : ℝ) < D := by exact_mod_cast o4
  have o5' : ((E.M11.sup : ℚ) : ℝ) * (max T0 U0 : ℚ) + E.M01.sup * (max T1 U1 : ℚ) ≤ x * D := by exact_mod_cast o5
  have o6' : ((E.M01.sup : ℚ) : ℝ) * (max T0 U0 : ℚ) + E.M00.sup * (max T1 U1 : ℚ) ≤ x * D := by exact_mod_cast o6
  have o7' : (r : ℝ) + (((E.M00.sup : ℚ) : ℝ) + E.M01.sup + E.M11.sup) * (26 * η * x) / u ≤ r' := by exact_mod_cast o7
  have s00 : |c'.M 0 0| ≤ _ := H'.M00.le_sup
  have s01 : |c'.M 0 1| ≤ _ := H'.M01.le_sup
  have s11 : |c'.M 1 1| ≤ _ := H'.M11.le_sup
  have hdet : ((D : ℚ) : ℝ) ≤ c'.M 0 0 * c'.M 1 1 - c'.M 0 1 * c'.M 1 0 := by
    rw [e1, H.z1]
    exact ((H.M00.mul H.M11).sub (H.M01.mul H.M01)).1
  have hv0 : 0 < v := by linarith
  have hg0 : 0 < g := by linarith
  have gs : |g| ≤ (G.sup : ℚ) := hG.le_sup
  have vs : |v| ≤ (V : ℝ) := by rw [abs_of_pos hv0]; exact hV
  have hmax : ∀ {a b : ℚ} {y : ℝ}, |y| ≤ a ∨ |y| ≤ b → |y| ≤ ((max a b : ℚ) : ℝ) := fun h => by
    rw [Rat.cast_max]
    exact h.elim le_max_of_le_left le_max_of_le_right
  have stiff : ∀ (k w : ℝ) (ks ws : ℚ), |k| ≤ ks → |w| ≤ ws →
      |g * k + v ^ 2 * w| ≤ ((G.sup * ks + V * V * ws : ℚ) : ℝ) := fun k w ks ws hk hw => by
    refine (abs_add_le _ _).trans ?_
    rw [abs_mul, abs_mul, abs_pow, sq]
    push_cast
    refine add_le_add (mul_le_mul gs hk (abs_nonneg _) ((abs_nonneg _).trans gs)) ?_
    exact mul_le_mul (mul_le_mul vs vs (abs_nonneg _) ((abs_nonneg _).trans vs)) hw (abs_nonneg _)
      (mul_nonneg ((abs_nonneg _).trans vs) ((abs_nonneg _).trans vs))
  have damp : ∀ (k : ℝ) (ks : ℚ), |k| ≤ ks → |v * k| ≤ ((V * ks : ℚ) : ℝ) := fun k ks hk => by
    rw [abs_mul]
    push_cast
    exact mul_le_mul vs hk (abs_nonneg _) ((abs_nonneg _).trans vs)
  have z0 : ∀ {a : ℚ} {y : ℝ}, |y| ≤ a → |(0 : ℝ)| ≤ a := fun h => by rw [abs_zero]; exact (abs_nonneg _).trans h
  have hp : Bd x (a21 c'.M c'.K0 c'.K2 v g) := by
    refine inv_mul_bound c'.M _ H'.z1 _ _ _ D x _ _ s00 s01 s11 o4' hdet (fun j => ?_) (fun j => ?_) o5' o6'
    · refine hmax (.inl ?_)
      fin_cases j
      · exact stiff _ _ _ _ (hmax (.inl H'.K00.le_sup)) (by
          show |c'.K2 0 0| ≤ _
          rw [H'.z3]; exact z0 H'.L01.le_sup)
      · exact stiff _ _ _ _ (hmax (.inr H'.K01.le_sup)) H'.L01.le_sup
    · refine hmax (.inl ?_)
      fin_cases j
      · exact stiff _ _ _ _ (hmax (.inl H'.K10.le_sup)) (by
          show |c'.K2 1 0| ≤ _
          rw [H'.z4]; exact z0 H'.L11.le_sup)
      · exact stiff _ _ _ _ (hmax (.inr H'.K11.le_sup)) H'.L11.le_sup
  have hq : Bd x (a22 c'.M c'.C1 v) := by
    refine inv_mul_bound c'.M _ H'.z1 _ _ _ D x _ _ s00 s01 s11 o4' hdet (fun j => ?_) (fun j => ?_) o5' o6'
    · refine hmax (.inr ?_)
      fin_cases j
      · exact damp _ _ (hmax (.inl H'.C00.le_sup))
      · exact damp _ _ (hmax (.inr H'.C01.le_sup))
    · refine hmax (.inr ?_)
      fin_cases j
      · exact damp _ _ (hmax (.inl H'.C10.le_sup))
      · exact damp _ _ (hmax (.inr H'.C11.le_sup))
  have hent : ∀ i j, |machineA O c v g i j| ≤ x := by
    rw [e2, abA_block]
    have z : |(0 : ℝ)| ≤ x := by rw [abs_zero]; linarith
    have o : |(1 : ℝ)| ≤ x := by rw [abs_one]; exact o2'
    intro i j
    fin_cases i <;> fin_cases j
    · exact z
    · exact z
    · exact o
    · exact z
    · exact z
    · exact z
    · exact z
    · exact o
    · exact hp 0 0
    · exact hp 0 1
    · exact hq 0 0
    · exact hq 0 1
    · exact hp 1 0
    · exact hp 1 1
    · exact hq 1 0
    · exact hq 1 1
  refine ⟨hent, fun F hF => ?_⟩
  obtain ⟨P, Q, hP, hQ, hl⟩ := state_of_near _ _ F η x hF o1' o2' hp hq
  have hdet0 : c'.M.det ≠ 0 := by rw [det_fin_two]; exact (o4'.trans_le hdet).ne'
  set e := 26 * (η : ℝ) * x with he
  have hmul : ∀ R : Mat2 ℝ, Bd e R → ∀ t : ℝ, (u : ℝ) ≤ t → ∀ X : Mat2 ℝ, ∀ m j, |(X - (1 / t) • (c'.M * R)) m j - X m j| ≤
      (((E.M00.sup : ℚ) : ℝ) + E.M01.sup + E.M11.sup) * e / u := fun R hR t ht X m j => by
    have e3 : (X - (1 / t) • (c'.M * R)) m j - X m j = -(1 / t * (c'.M * R) m j) := by
      rw [Matrix.sub_apply, Matrix.smul_apply, smul_eq_mul]; ring
    have ht0 : 0 < t := o0'.trans_le ht
    have ht' : |1 / t| ≤ 1 / u := by
      rw [abs_of_pos (by positivity)]; exact one_div_le_one_div_of_le o0' ht
    have hrow : |c'.M m 0| + |c'.M m 1| ≤ ((E.M00.sup : ℚ) : ℝ) + E.M01.sup + E.M11.sup := by
      have n00 := (abs_nonneg _).trans s00
      have n11 := (abs_nonneg _).trans s11
      fin_cases m
      · show |c'.M 0 0| + |c'.M 0 1| ≤ _
        have : |c'.M 0 0| ≤ E.M00.sup := s00
        have : |c'.M 0 1| ≤ E.M01.sup := s01
        have : (0 : ℝ) ≤ E.M11.sup := n11
        linarith
      · show |c'.M 1 0| + |c'.M 1 1| ≤ _
        rw [H'.z1]
        have : |c'.M 0 1| ≤ E.M01.sup := s01
        have : |c'.M 1 1| ≤ E.M11.sup := s11
        have : (0 : ℝ) ≤ E.M00.sup := n00
        linarith
    rw [e3, abs_neg, abs_mul]
    have h1 : |(c'.M * R) m j| ≤ (|c'.M m 0| + |c'.M m 1|) * e := by
      rw [Matrix.mul_apply, Fin.sum_univ_two]
      refine (abs_add_le _ _).trans ?_
      rw [abs_mul, abs_mul, add_mul]
      exact add_le_add (mul_le_mul_of_nonneg_left (hR 0 j) (abs_nonneg _)) (mul_le_mul_of_nonneg_left (hR 1 j) (abs_nonneg _))
    have h3 := mul_le_mul_of_nonneg_right hrow hR.nonneg
    have h2 := mul_le_mul ht' (h1.trans h3) (abs_nonneg _) (by positivity)
    rwa [one_div_mul_eq_div] at h2
  let c'' : Canon := ⟨c'.M, c'.C1 - (1 / v) • (c'.M * (Q - a22 c'.M c'.C1 v)),
    c'.K0 - (1 / g) • (c'.M * (P - a21 c'.M c'.K0 c'.K2 v g)), c'.K2⟩
  have hab : abA c''.M c''.C1 c''.K0 c''.K2 v g = block4 0 1 P Q := by
    rw [abA_block]
    congr 1
    · show -(invM c'.M * (g • (c'.K0 - (1 / g) • (c'.M * (P - a21 c'.M c'.K0 c'.K2 v g))) + v ^ 2 • c'.K2)) = P
      have e4 : g • (c'.K0 - (1 / g) • (c'.M * (P - a21 c'.M c'.K0 c'.K2 v g))) + v ^ 2 • c'.K2 =
          (g • c'.K0 + v ^ 2 • c'.K2) - c'.M * (P - a21 c'.M c'.K0 c'.K2 v g) := by
        rw [smul_sub, smul_smul, mul_one_div_cancel hg0.ne', one_smul]; abel
      rw [e4, Matrix.mul_sub, ← Matrix.mul_assoc, mul_invM ℝ c'.M hdet0, Matrix.one_mul, a21]
      abel
    · show -(invM c'.M * (v • (c'.C1 - (1 / v) • (c'.M * (Q - a22 c'.M c'.C1 v))))) = Q
      have e4 : v • (c'.C1 - (1 / v) • (c'.M * (Q - a22 c'.M c'.C1 v))) = v • c'.C1 - c'.M * (Q - a22 c'.M c'.C1 v) := by
        rw [smul_sub, smul_smul, mul_one_div_cancel hv0.ne', one_smul]
      rw [e4, Matrix.mul_sub, ← Matrix.mul_assoc, mul_invM ℝ c'.M hdet0, Matrix.one_mul, a22]
      abel
  have nK := hmul _ hP g o3' c'.K0
  have nC := hmul _ hQ v hv c'.C1
  have hMs : (0 : ℝ) ≤ (((E.M00.sup : ℚ) : ℝ) + E.M01.sup + E.M11.sup) * e / u := (abs_nonneg _).trans (nK 0 0)
  have same : ∀ y : ℝ, |y - y| ≤ (((E.M00.sup : ℚ) : ℝ) + E.M01.sup + E.M11.sup) * e / u := fun y => by
    rw [sub_self, abs_zero]; exact hMs
  have H'' : (E.loose r').Hold c'' := ⟨H'.M00, H'.M01, H'.M11, H'.K00.wider (nK 0 0) o7', H'.K01.wider (nK 0 1) o7',
    H'.K10.wider (nK 1 0) o7', H'.K11.wider (nK 1 1) o7', H'.L01.wider (same _) o7', H'.L11.wider (same _) o7',
    H'.C00.wider (nC 0 0) o7', H'.C01.wider (nC 0 1) o7', H'.C10.wider (nC 1 0) o7', H'.C11.wider (nC 1 1) o7',
    H'.z1, H'.z3, H'.z4⟩
  obtain ⟨vw, vc, h1, h2, h3⟩ := Loose.range H'' hG hs
  have h4 : ∀ l, IsEigenvalue (toC (machineA O c v g + F)) l ↔ IsEigenvalue (toC (abA c''.M c''.C1 c''.K0 c''.K2 v g)) l :=
    fun l => by rw [e2, abA_block, hl l, hab]
  refine ⟨fun a b l hl' => (h3 v).2 ⟨by linarith [h1.2], by linarith [h2.1]⟩ l ((h4 l).1 hl'), fun h => ?_⟩
  by_contra hn
  push Not at hn
  have := (h3 v).1 fun l hl' => hn l ((h4 l).2 hl')
  rcases h with h | h
  · linarith [h1.1, this.1]
  · linarith [h2.2, this.2]

end BP
