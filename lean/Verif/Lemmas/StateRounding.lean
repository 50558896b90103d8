import Verif.Lemmas.RoundingRel
import Verif.Lemmas.StableCheck

/-!
# The state matrix with rounding is an exact one for matrices nearby
-/

set_option linter.unusedSimpArgs false

namespace BP

open Matrix Spec

/-- A factor of `n` roundings, for the proofs. -/
def Fac (n : ℕ) (ρ : ℝ) : Prop := Near n 1 ρ

namespace Fac

theorem mul {n m : ℕ} {a b : ℝ} (h : Fac n a) (h' : Fac m b) : Fac (n + m) (a * b) := by
  have := Near.mul h h'
  rwa [one_mul] at this

theorem inv {n : ℕ} {a : ℝ} (h : Fac n a) : Fac n a⁻¹ := by
  have := Near.inv h one_pos
  rwa [inv_one] at this

theorem mono {n m : ℕ} {a : ℝ} (h : Fac n a) (hnm : n ≤ m) : Fac m a := Near.mono h hnm

theorem pos {n : ℕ} {a : ℝ} (h : Fac n a) : 0 < a := Near.pos h one_pos

theorem near {n : ℕ} {a : ℝ} (h : Fac n a) : |a - 1| ≤ wob ^ n - 1 := by
  have := Near.rel h (e := wob ^ n - 1) (by linarith)
  rwa [mul_one] at this

end Fac

theorem Spec.RoundedRel.fac {r y : ℝ} (h : RoundedRel r y) : ∃ ρ, Fac 1 ρ ∧ y = r * ρ := by
  by_cases hr : r = 0
  · subst hr
    unfold RoundedRel at h
    rw [abs_zero, zero_div, sub_zero] at h
    exact ⟨1, (Near.refl zero_le_one).mono (Nat.zero_le 1), by rw [mul_one]; exact abs_nonpos_iff.1 h⟩
  · refine ⟨y / r, Near.round zero_le_one ?_, (mul_div_cancel₀ y hr).symm⟩
    have hr' := abs_pos.2 hr
    unfold RoundedRel at *
    rw [abs_one, show y / r - 1 = (y - r) / r by field_simp, abs_div, div_le_iff₀ hr']
    calc |y - r| ≤ |r| / 2 ^ 52 := h
      _ = 1 / 2 ^ 52 * |r| := by ring

/-- A sum of products with factors is a product with a matrix nearby. -/
theorem perturb (M X : Mat2 ℝ) (hM : M.det ≠ 0) (A : Fin 2 → Fin 2 → Fin 2 → ℝ) (n : ℕ) (hA : ∀ i j l, Fac n (A i j l)) :
    ∃ X' : Mat2 ℝ, (∀ i j, (invM M * X') i j = ∑ l, invM M i l * X l j * A i j l) ∧
      (∀ j, (∀ l, X l j = 0) → ∀ m, X' m j = 0) ∧
      ∀ m j, |X' m j - X m j| ≤ (wob ^ n - 1) * ∑ i, ∑ l, |M m i| * |invM M i l| * |X l j| := by
  let Y : Mat2 ℝ := .of fun i j => ∑ l, invM M i l * X l j * A i j l
  refine ⟨M * Y, fun i j => ?_, fun j hj m => ?_, fun m j => ?_⟩
  · rw [← Matrix.mul_assoc, mul_invM ℝ M hM, Matrix.one_mul]; rfl
  · rw [Matrix.mul_apply]
    refine Finset.sum_eq_zero fun i _ => ?_
    have : Y i j = 0 := by
      show ∑ l, invM M i l * X l j * A i j l = 0
      exact Finset.sum_eq_zero fun l _ => by rw [hj l]; ring
    rw [this, mul_zero]
  · have hX : X m j = ∑ i, M m i * ∑ l, invM M i l * X l j := by
      have e : X = M * (invM M * X) := by rw [← Matrix.mul_assoc, invM_mul ℝ M hM, Matrix.one_mul]
      conv_lhs => rw [e]
      rw [Matrix.mul_apply]
      exact Finset.sum_congr rfl fun i _ => by rw [Matrix.mul_apply]
    rw [hX, Matrix.mul_apply, ← Finset.sum_sub_distrib, Finset.mul_sum]
    refine (Finset.abs_sum_le_sum_abs _ _).trans (Finset.sum_le_sum fun i _ => ?_)
    have e : M m i * Y i j - M m i * ∑ l, invM M i l * X l j = ∑ l, M m i * invM M i l * X l j * (A i j l - 1) := by
      show M m i * (∑ l, invM M i l * X l j * A i j l) - _ = _
      rw [← mul_sub, ← Finset.sum_sub_distrib, Finset.mul_sum]
      exact Finset.sum_congr rfl fun l _ => by ring
    rw [e, Finset.mul_sum]
    refine (Finset.abs_sum_le_sum_abs _ _).trans (Finset.sum_le_sum fun l _ => ?_)
    rw [abs_mul, abs_mul, abs_mul, mul_comm]
    exact mul_le_mul_of_nonneg_right (hA i j l).near (by positivity)

/-- The inverse of the mass matrix, with factors. -/
theorem inv_fac {O : Machine} (hO : RoundsRel O) (M : Mat2 ℝ)
    (hκ : |M 0 0 * M 1 1| + |M 0 1 * M 1 0| ≤ 2 * (M 0 0 * M 1 1 - M 0 1 * M 1 0))
    (hM : 0 < M.det) : ∀ i l, ∃ ρ, Fac 11 ρ ∧ machineInv O M i l = invM M i l * ρ := by
  rw [det_fin_two] at hM
  obtain ⟨a, ha, ea⟩ := (hO.mul (M 0 0) (M 1 1)).fac
  obtain ⟨b, hb, eb⟩ := (hO.mul (M 0 1) (M 1 0)).fac
  obtain ⟨s, hs, es⟩ := (hO.sub (O.mul (M 0 0) (M 1 1)) (O.mul (M 0 1) (M 1 0))).fac
  set D := M 0 0 * M 1 1 - M 0 1 * M 1 0 with hD
  set D' := O.sub (O.mul (M 0 0) (M 1 1)) (O.mul (M 0 1) (M 1 0)) with hD'
  have w2 : wob ^ 2 - 1 ≤ 1 / 2 ^ 49 := by unfold wob; norm_num
  have h1 : |a * s - 1| ≤ 1 / 2 ^ 49 := (ha.mul hs).near.trans w2
  have h2 : |b * s - 1| ≤ 1 / 2 ^ 49 := (hb.mul hs).near.trans w2
  have h3 : |D' - D| ≤ D / 2 ^ 48 := by
    have e : D' - D = M 0 0 * M 1 1 * (a * s - 1) + -(M 0 1 * M 1 0 * (b * s - 1)) := by rw [es, ea, eb, hD]; ring
    rw [e]
    refine (abs_add_le _ _).trans ?_
    rw [abs_neg, abs_mul (M 0 0 * M 1 1), abs_mul (M 0 1 * M 1 0)]
    have := mul_le_mul_of_nonneg_left h1 (abs_nonneg (M 0 0 * M 1 1))
    have := mul_le_mul_of_nonneg_left h2 (abs_nonneg (M 0 1 * M 1 0))
    linarith
  have h4 : Fac 9 (D' / D) := by
    have h5 : |D' / D - 1| ≤ 1 / 2 ^ 48 := by
      rw [show D' / D - 1 = (D' - D) / D by field_simp, abs_div, abs_of_pos hM, div_le_iff₀ hM]
      linarith
    rw [abs_le] at h5
    have w9 : 1 + 1 / 2 ^ 48 ≤ wob ^ 9 := by unfold wob; norm_num
    have w9' : 1 ≤ wob ^ 9 * (1 - 1 / 2 ^ 48) := by unfold wob; norm_num
    refine ⟨zero_le_one, by rw [mul_one]; linarith, w9'.trans (mul_le_mul_of_nonneg_left (by linarith) (wob_pos 9).le)⟩
  have hD0 : D' ≠ 0 := by
    have := h4.pos
    intro h
    rw [h, zero_div] at this
    exact lt_irrefl 0 this
  obtain ⟨q, hq, eq⟩ := (hO.div 1 D' hD0).fac
  have hq' : Fac 10 ((D' / D)⁻¹ * q) := h4.inv.mul hq
  have eq' : O.div 1 D' = 1 / D * ((D' / D)⁻¹ * q) := by rw [eq]; field_simp
  have key : ∀ x, ∃ ρ, Fac 11 ρ ∧ O.mul (O.div 1 D') x = 1 / D * x * ρ := fun x => by
    obtain ⟨t, ht, et⟩ := (hO.mul (O.div 1 D') x).fac
    exact ⟨_, hq'.mul ht, by rw [et, eq']; ring⟩
  intro i l
  fin_cases i <;> fin_cases l
  · exact key (M 1 1)
  · obtain ⟨ρ, h, e⟩ := key (-M 0 1)
    refine ⟨ρ, h, ?_⟩
    show O.mul (O.div 1 D') (O.neg (M 0 1)) = 1 / D * -M 0 1 * ρ
    rw [hO.neg, e]
  · obtain ⟨ρ, h, e⟩ := key (-M 1 0)
    refine ⟨ρ, h, ?_⟩
    show O.mul (O.div 1 D') (O.neg (M 1 0)) = 1 / D * -M 1 0 * ρ
    rw [hO.neg, e]
  · exact key (M 0 0)

/-- A small relative change is a factor. -/
theorem fac_of_small {t : ℝ} (h : |t| ≤ 1 / 2 ^ 50) : Fac 3 (1 + t) := by
  rw [abs_le] at h
  have w : 1 + 1 / 2 ^ 50 ≤ wob ^ 3 := by unfold wob; norm_num
  have w' : 1 ≤ wob ^ 3 * (1 - 1 / 2 ^ 50) := by unfold wob; norm_num
  exact ⟨zero_le_one, by rw [mul_one]; linarith, w'.trans (mul_le_mul_of_nonneg_left (by linarith) (wob_pos 3).le)⟩

/-- A dot product, with factors. -/
theorem dot_fac {O : Machine} (hO : RoundsRel O) (a b : Mat2 ℝ) (i j : Fin 2) :
    ∃ ρ : Fin 2 → ℝ, (∀ l, Fac 3 (ρ l)) ∧ machineDot O a b i j = ∑ l, a i l * b l j * ρ l := by
  have h := hO.dot (a i 0) (b 0 j) (a i 1) (b 1 j)
  set x := a i 0 * b 0 j with hx
  set y := a i 1 * b 1 j with hy
  set E := O.dot (a i 0) (b 0 j) (a i 1) (b 1 j) - (x + y) with hE
  have e : machineDot O a b i j = x + y + E := by rw [machineDot, hE]; ring
  by_cases hs : |x| + |y| = 0
  · have h0 : E = 0 := by rw [hs, zero_div] at h; exact abs_nonpos_iff.1 h
    refine ⟨fun _ => 1, fun l => (Near.refl zero_le_one).mono (Nat.zero_le 3), ?_⟩
    rw [e, h0, Fin.sum_univ_two, ← hx, ← hy]
    ring
  · have hpos : 0 < |x| + |y| := lt_of_le_of_ne (by positivity) (Ne.symm hs)
    have key : ∀ z : ℝ, |SignType.sign z * (E / (|x| + |y|))| ≤ 1 / 2 ^ 50 := fun z => by
      have h1 : |E / (|x| + |y|)| ≤ 1 / 2 ^ 50 := by
        rw [abs_div, abs_of_pos hpos, div_le_iff₀ hpos]
        linarith
      have h2 : |((SignType.sign z : SignType) : ℝ)| ≤ 1 := by
        rcases lt_trichotomy z 0 with hz | hz | hz
        · rw [sign_neg hz]; norm_num
        · rw [hz, sign_zero]; norm_num
        · rw [sign_pos hz]; norm_num
      rw [abs_mul]
      have := mul_le_mul h2 h1 (abs_nonneg _) zero_le_one
      linarith
    refine ⟨![1 + SignType.sign x * (E / (|x| + |y|)), 1 + SignType.sign y * (E / (|x| + |y|))], fun l => by
      fin_cases l <;> [exact fac_of_small (key x); exact fac_of_small (key y)], ?_⟩
    rw [e, Fin.sum_univ_two, ← hx, ← hy]
    simp only [cons_val_zero, cons_val_one]
    have s1 : x * SignType.sign x = |x| := self_mul_sign x
    have s2 : y * SignType.sign y = |y| := self_mul_sign y
    have e2 : x * (1 + SignType.sign x * (E / (|x| + |y|))) + y * (1 + SignType.sign y * (E / (|x| + |y|))) =
        x + y + (x * SignType.sign x + y * SignType.sign y) * (E / (|x| + |y|)) := by ring
    rw [e2, s1, s2, mul_div_cancel₀ _ hs]

/-- The computed state matrix is the exact one of matrices nearby. -/
theorem state_nearby {O : Machine} (hO : RoundsRel O) (c : Canon) (v g : ℝ) (hM : 0 < c.M.det)
    (hκ : |c.M 0 0 * c.M 1 1| + |c.M 0 1 * c.M 1 0| ≤ 2 * (c.M 0 0 * c.M 1 1 - c.M 0 1 * c.M 1 0)) :
    ∃ c' : Canon, c'.M = c.M ∧ machineA O c v g = abA c'.M c'.C1 c'.K0 c'.K2 v g ∧
      (∀ j, (∀ l, c.K2 l j = 0) → ∀ m, c'.K2 m j = 0) ∧
      (∀ m j, |c'.K0 m j - c.K0 m j| ≤ (wob ^ 17 - 1) * ∑ i, ∑ l, |c.M m i| * |invM c.M i l| * |c.K0 l j|) ∧
      (∀ m j, |c'.K2 m j - c.K2 m j| ≤ (wob ^ 17 - 1) * ∑ i, ∑ l, |c.M m i| * |invM c.M i l| * |c.K2 l j|) ∧
      ∀ m j, |c'.C1 m j - c.C1 m j| ≤ (wob ^ 17 - 1) * ∑ i, ∑ l, |c.M m i| * |invM c.M i l| * |c.C1 l j| := by
  have h1 := inv_fac hO c.M hκ hM
  choose ρ hρ eρ using h1
  have hk : ∀ l j, ∃ α β, Fac 3 α ∧ Fac 3 β ∧ O.add (O.mul g (c.K0 l j)) (O.mul (O.sq v) (c.K2 l j)) =
      g * c.K0 l j * α + v ^ 2 * c.K2 l j * β := fun l j => by
    obtain ⟨x, hx, ex⟩ := (hO.mul g (c.K0 l j)).fac
    obtain ⟨y, hy, ey⟩ := (hO.sq v).fac
    obtain ⟨z, hz, ez⟩ := (hO.mul (O.sq v) (c.K2 l j)).fac
    obtain ⟨s, hs, es⟩ := (hO.add (O.mul g (c.K0 l j)) (O.mul (O.sq v) (c.K2 l j))).fac
    refine ⟨x * s, y * z * s, (hx.mul hs).mono (by norm_num), (hy.mul hz).mul hs, ?_⟩
    rw [es, ex, ez, ey]
    ring
  choose α β hα hβ ek using hk
  have hs : ∀ l j, ∃ γ, Fac 3 γ ∧ O.mul v (c.C1 l j) = v * c.C1 l j * γ := fun l j => by
    obtain ⟨x, hx, ex⟩ := (hO.mul v (c.C1 l j)).fac
    exact ⟨x, hx.mono (by norm_num), ex⟩
  choose γ hγ eγ using hs
  choose σ hσ eσ using dot_fac hO (machineInv O c.M)
    (.of fun i j => O.add (O.mul g (c.K0 i j)) (O.mul (O.sq v) (c.K2 i j)))
  choose τ hτ eτ using dot_fac hO (machineInv O c.M) (.of fun i j => O.mul v (c.C1 i j))
  obtain ⟨K0', a1, -, a3⟩ := perturb c.M c.K0 hM.ne' (fun i j l => ρ i l * α l j * σ i j l) 17
    fun i j l => ((hρ i l).mul (hα l j)).mul (hσ i j l)
  obtain ⟨K2', b1, b2, b3⟩ := perturb c.M c.K2 hM.ne' (fun i j l => ρ i l * β l j * σ i j l) 17
    fun i j l => ((hρ i l).mul (hβ l j)).mul (hσ i j l)
  obtain ⟨C1', d1, -, d3⟩ := perturb c.M c.C1 hM.ne' (fun i j l => ρ i l * γ l j * τ i j l) 17
    fun i j l => ((hρ i l).mul (hγ l j)).mul (hτ i j l)
  refine ⟨⟨c.M, C1', K0', K2'⟩, rfl, ?_, b2, a3, b3, d3⟩
  have hp : ∀ i j, machineA21 O c v g i j = a21 c.M K0' K2' v g i j := fun i j => by
    rw [machineA21, hO.neg, eσ, a21, Matrix.neg_apply, Matrix.mul_add, Matrix.mul_smul, Matrix.mul_smul, Matrix.add_apply,
      Matrix.smul_apply, Matrix.smul_apply, a1, b1, smul_eq_mul, smul_eq_mul, Finset.mul_sum, Finset.mul_sum,
      ← Finset.sum_add_distrib]
    congr 1
    refine Finset.sum_congr rfl fun l _ => ?_
    rw [Matrix.of_apply, ek, eρ]
    ring
  have hq : ∀ i j, machineA22 O c v i j = a22 c.M C1' v i j := fun i j => by
    rw [machineA22, hO.neg, eτ, a22, Matrix.neg_apply, Matrix.mul_smul, Matrix.smul_apply, d1, smul_eq_mul, Finset.mul_sum]
    congr 1
    refine Finset.sum_congr rfl fun l _ => ?_
    rw [Matrix.of_apply, eγ, eρ]
    ring
  rw [machineA, abA]
  simp only [hp, hq]

/-! ## Ranges -/

/-- The ranges of the entries of matrices like those of bicycle.py:143-167, the small errors of which are arbitrary, for the
proofs. -/
structure Loose where
  M00 : Box
  M01 : Box
  M11 : Box
  K00 : Box
  K01 : Box
  K10 : Box
  K11 : Box
  L01 : Box
  L11 : Box
  C00 : Box
  C01 : Box
  C10 : Box
  C11 : Box

/-- The ranges hold the matrices, for the proofs. -/
structure Loose.Hold (E : Loose) (c : Canon) : Prop where
  M00 : E.M00.Has (c.M 0 0)
  M01 : E.M01.Has (c.M 0 1)
  M11 : E.M11.Has (c.M 1 1)
  K00 : E.K00.Has (c.K0 0 0)
  K01 : E.K01.Has (c.K0 0 1)
  K10 : E.K10.Has (c.K0 1 0)
  K11 : E.K11.Has (c.K0 1 1)
  L01 : E.L01.Has (c.K2 0 1)
  L11 : E.L11.Has (c.K2 1 1)
  C00 : E.C00.Has (c.C1 0 0)
  C01 : E.C01.Has (c.C1 0 1)
  C10 : E.C10.Has (c.C1 1 0)
  C11 : E.C11.Has (c.C1 1 1)
  z1 : c.M 1 0 = c.M 0 1
  z3 : c.K2 0 0 = 0
  z4 : c.K2 1 0 = 0

namespace Loose

variable (E : Loose)

/-- A coefficient of the characteristic polynomial (bicycle.py:8-75) from det M, for the proof. -/
def mD : Box := E.M00 * E.M11 - E.M01 * E.M01
/-- A coefficient of the characteristic polynomial (bicycle.py:8-75) from M and C1, for the proof. -/
def m3 : Box := E.M00 * E.C11 + E.M11 * E.C00 - E.M01 * E.C10 - E.M01 * E.C01
/-- A coefficient of the characteristic polynomial (bicycle.py:8-75) from M and K0, for the proof. -/
def p0 (G : Box) : Box := G * (E.M00 * E.K11 + E.M11 * E.K00 - E.M01 * E.K10 - E.M01 * E.K01)
/-- A coefficient of the characteristic polynomial (bicycle.py:8-75) from C1, M and K2, for the proof. -/
def p2 : Box := E.C00 * E.C11 - E.C01 * E.C10 + (E.M00 * E.L11 - E.M01 * E.L01)
/-- A coefficient of the characteristic polynomial (bicycle.py:8-75) from C1 and K0, for the proof. -/
def q0 (G : Box) : Box := G * (E.C00 * E.K11 + E.C11 * E.K00 - E.C01 * E.K10 - E.C10 * E.K01)
/-- A coefficient of the characteristic polynomial (bicycle.py:8-75) from C1 and K2, for the proof. -/
def q2 : Box := E.C00 * E.L11 - E.C10 * E.L01
/-- A coefficient of the characteristic polynomial (bicycle.py:8-75) from det K0, for the proof. -/
def r0 (G : Box) : Box := G * G * (E.K00 * E.K11 - E.K01 * E.K10)
/-- A coefficient of the characteristic polynomial (bicycle.py:8-75) from K0 and K2, for the proof. -/
def r1 (G : Box) : Box := G * (E.K00 * E.L11 - E.K10 * E.L01)
/-- The range of `weaveForm`, for the proof. -/
def weave (G : Box) (x : ℚ) : Box :=
  m3 E * (p0 E G + p2 E * Box.pt x) * (q0 E G + q2 E * Box.pt x) -
    mD E * ((q0 E G + q2 E * Box.pt x) * (q0 E G + q2 E * Box.pt x)) - (r0 E G + r1 E G * Box.pt x) * (m3 E * m3 E)

/-- The seventeen signs of `RangeSigns`, for the proof. -/
def signs (G : Box) (lo hi lo' hi' : ℚ) : Bool :=
  decide (0 < (mD E).lo) && decide (0 < (m3 E).lo) && decide (0 < (p2 E).lo) && decide (0 < (q2 E).lo) &&
  decide ((r1 E G).hi < 0) && decide (0 < (p0 E G + p2 E * Box.pt (lo * lo)).lo) &&
  decide (0 < (q0 E G + q2 E * Box.pt (lo * lo)).lo) &&
  decide (0 < (m3 E * p2 E * q2 E - mD E * (q2 E * q2 E)).lo) && decide ((weave E G 0).hi < 0) &&
  decide ((weave E G (lo * lo)).hi < 0) && decide (0 < (weave E G (hi * hi)).lo) &&
  decide (0 < (r0 E G + r1 E G * Box.pt (lo' * lo')).lo) && decide ((r0 E G + r1 E G * Box.pt (hi' * hi')).hi < 0) &&
  decide (0 < lo) && decide (lo < hi) && decide (0 < lo') && decide (lo' < hi')

variable {E}

/-- The range of the speeds from the signs. -/
theorem range {c : Canon} (H : E.Hold c) {G : Box} {g : ℝ} {lo hi lo' hi' : ℚ} (hG : G.Has g)
    (h : signs E G lo hi lo' hi' = true) :
    ∃ vw vc : ℝ, ((lo : ℝ) < vw ∧ vw < hi) ∧ ((lo' : ℝ) < vc ∧ vc < hi') ∧ ∀ v : ℝ, Damped c v g ↔ vw < v ∧ v < vc := by
  simp only [signs, Bool.and_eq_true, decide_eq_true_eq] at h
  obtain ⟨⟨⟨⟨⟨⟨⟨⟨⟨⟨⟨⟨⟨⟨⟨⟨a1, a2⟩, a3⟩, a4⟩, a5⟩, a6⟩, a7⟩, a8⟩, a9⟩, a10⟩, a11⟩, a12⟩, a13⟩, a14⟩, a15⟩, a16⟩, a17⟩ := h
  obtain ⟨z1, z3, z4⟩ := (⟨H.z1, H.z3, H.z4⟩ : _ ∧ _ ∧ _)
  have hmD : (mD E).Has c.M.det := by
    rw [det_fin_two, z1]; exact (H.M00.mul H.M11).sub (H.M01.mul H.M01)
  have hm3 : (m3 E).Has (mixed c.M c.C1) := by
    have e : mixed c.M c.C1 = c.M 0 0 * c.C1 1 1 + c.M 1 1 * c.C1 0 0 - c.M 0 1 * c.C1 1 0 - c.M 0 1 * c.C1 0 1 := by
      rw [mixed, z1]
    rw [e]; exact (((H.M00.mul H.C11).add (H.M11.mul H.C00)).sub (H.M01.mul H.C10)).sub (H.M01.mul H.C01)
  have hp0 : (p0 E G).Has (g * mixed c.M c.K0) := by
    have e : mixed c.M c.K0 = c.M 0 0 * c.K0 1 1 + c.M 1 1 * c.K0 0 0 - c.M 0 1 * c.K0 1 0 - c.M 0 1 * c.K0 0 1 := by
      rw [mixed, z1]
    rw [e]
    exact hG.mul ((((H.M00.mul H.K11).add (H.M11.mul H.K00)).sub (H.M01.mul H.K10)).sub (H.M01.mul H.K01))
  have hp2 : (p2 E).Has (c.C1.det + mixed c.M c.K2) := by
    have e : c.C1.det + mixed c.M c.K2 = c.C1 0 0 * c.C1 1 1 - c.C1 0 1 * c.C1 1 0 +
        (c.M 0 0 * c.K2 1 1 - c.M 0 1 * c.K2 0 1) := by
      rw [mixed, det_fin_two, z1, z3, z4]; ring
    rw [e]; exact ((H.C00.mul H.C11).sub (H.C01.mul H.C10)).add ((H.M00.mul H.L11).sub (H.M01.mul H.L01))
  have hq0 : (q0 E G).Has (g * mixed c.C1 c.K0) := by
    have e : mixed c.C1 c.K0 = c.C1 0 0 * c.K0 1 1 + c.C1 1 1 * c.K0 0 0 - c.C1 0 1 * c.K0 1 0 - c.C1 1 0 * c.K0 0 1 := by
      rw [mixed]
    rw [e]; exact hG.mul ((((H.C00.mul H.K11).add (H.C11.mul H.K00)).sub (H.C01.mul H.K10)).sub (H.C10.mul H.K01))
  have hq2 : (q2 E).Has (mixed c.C1 c.K2) := by
    have e : mixed c.C1 c.K2 = c.C1 0 0 * c.K2 1 1 - c.C1 1 0 * c.K2 0 1 := by rw [mixed, z3, z4]; ring
    rw [e]; exact (H.C00.mul H.L11).sub (H.C10.mul H.L01)
  have hr0 : (r0 E G).Has (g ^ 2 * c.K0.det) := by
    rw [det_fin_two]
    have : (G * G).Has (g ^ 2) := by rw [sq]; exact hG.mul hG
    exact this.mul ((H.K00.mul H.K11).sub (H.K01.mul H.K10))
  have hr1 : (r1 E G).Has (g * mixed c.K0 c.K2) := by
    have e : mixed c.K0 c.K2 = c.K0 0 0 * c.K2 1 1 - c.K0 1 0 * c.K2 0 1 := by rw [mixed, z3, z4]; ring
    rw [e]; exact hG.mul ((H.K00.mul H.L11).sub (H.K10.mul H.L01))
  have hsq : ∀ x : ℚ, (Box.pt (x * x)).Has ((x : ℝ) ^ 2) := fun x => by
    have := Box.has_pt (x * x); rw [sq]; push_cast at this; exact this
  have hw : ∀ (x : ℚ) (y : ℝ), (Box.pt x).Has y → (weave E G x).Has (weaveForm c g y) := fun x y hy => by
    have hQ := hq0.add (hq2.mul hy)
    have := (((hm3.mul (hp0.add (hp2.mul hy))).mul hQ).sub (hmD.mul (hQ.mul hQ))).sub
      ((hr0.add (hr1.mul hy)).mul (hm3.mul hm3))
    have e : weaveForm c g y = mixed c.M c.C1 * (g * mixed c.M c.K0 + (c.C1.det + mixed c.M c.K2) * y) *
        (g * mixed c.C1 c.K0 + mixed c.C1 c.K2 * y) -
        c.M.det * ((g * mixed c.C1 c.K0 + mixed c.C1 c.K2 * y) * (g * mixed c.C1 c.K0 + mixed c.C1 c.K2 * y)) -
        (g ^ 2 * c.K0.det + g * mixed c.K0 c.K2 * y) * (mixed c.M c.C1 * mixed c.M c.C1) := by
      rw [weaveForm]; ring
    rw [e]; exact this
  have h0 : (Box.pt 0).Has (0 : ℝ) := by have := Box.has_pt 0; push_cast at this; exact this
  have hlead : (m3 E * p2 E * q2 E - mD E * (q2 E * q2 E)).Has
      (mixed c.M c.C1 * (c.C1.det + mixed c.M c.K2) * mixed c.C1 c.K2 - c.M.det * mixed c.C1 c.K2 ^ 2) := by
    rw [sq]; exact ((hm3.mul hp2).mul hq2).sub (hmD.mul (hq2.mul hq2))
  refine range_of_signs c g lo hi lo' hi' (by rw [det_fin_two, z3, z4]; ring) ?_
  exact ⟨hmD.pos a1, hm3.pos a2, hp2.pos a3, hq2.pos a4, hr1.negative a5, (hp0.add (hp2.mul (hsq lo))).pos a6,
    (hq0.add (hq2.mul (hsq lo))).pos a7, hlead.pos a8, (hw 0 0 h0).negative a9, (hw _ _ (hsq lo)).negative a10,
    (hw _ _ (hsq hi)).pos a11, (hr0.add (hr1.mul (hsq lo'))).pos a12, (hr0.add (hr1.mul (hsq hi'))).negative a13,
    by exact_mod_cast a14, by exact_mod_cast a15, by exact_mod_cast a16, by exact_mod_cast a17⟩

end Loose

/-- Entries with errors up to `r` in all matrices but `M`, for the proofs. -/
def StableCheck.Entries.loose (E : StableCheck.Entries) (r : ℚ) : Loose :=
  ⟨E.M00, E.M01, E.M11, E.K00.widen r, E.K01.widen r, E.K01.widen r, E.K11.widen r, E.L01.widen r, E.L11.widen r,
   (Box.pt 0).widen r, E.C01.widen r, E.C10.widen r, E.C11.widen r⟩

/-- The largest absolute value of a range, for the proofs. -/
def Box.sup (b : Box) : ℚ := max (-b.lo) b.hi

theorem Box.Has.le_sup {b : Box} {x : ℝ} (h : b.Has x) : |x| ≤ b.sup := by
  have e : ((b.sup : ℚ) : ℝ) = max (-(b.lo : ℝ)) b.hi := by simp [Box.sup]
  rw [e, abs_le']
  exact ⟨le_max_of_le_right h.2, le_max_of_le_left (neg_le_neg h.1)⟩

/-- The largest entry but those of `M`, for the proofs. -/
def StableCheck.Entries.top (E : StableCheck.Entries) : ℚ :=
  max (max (max E.K00.sup E.K01.sup) (max E.K11.sup E.L01.sup)) (max (max E.L11.sup E.C01.sup) (max E.C10.sup E.C11.sup))

/-- What is checked for the error of the state matrix, for the proofs. -/
def StableCheck.Entries.conditioned (E : StableCheck.Entries) (r : ℚ) : Bool :=
  let D := (StableCheck.mD E).lo
  decide (0 < D) && decide (E.M00.sup * E.M11.sup + E.M01.sup * E.M01.sup ≤ 2 * D) &&
  decide ((E.M00.sup * (E.M11.sup + E.M01.sup) + E.M01.sup * (E.M01.sup + E.M00.sup)) * E.top ≤ 2 ^ 46 * r * D) &&
  decide ((E.M01.sup * (E.M11.sup + E.M01.sup) + E.M11.sup * (E.M01.sup + E.M00.sup)) * E.top ≤ 2 ^ 46 * r * D)

theorem row_bound (M X : Mat2 ℝ) (z : M 1 0 = M 0 1) (m00 m01 m11 x D r : ℝ) (h00 : |M 0 0| ≤ m00) (h01 : |M 0 1| ≤ m01)
    (h11 : |M 1 1| ≤ m11) (hx : ∀ l j, |X l j| ≤ x) (hD : 0 < D) (hd : D ≤ M 0 0 * M 1 1 - M 0 1 * M 1 0)
    (c0 : (m00 * (m11 + m01) + m01 * (m01 + m00)) * x ≤ 2 ^ 46 * r * D)
    (c1 : (m01 * (m11 + m01) + m11 * (m01 + m00)) * x ≤ 2 ^ 46 * r * D) (m j : Fin 2) :
    (wob ^ 17 - 1) * ∑ i, ∑ l, |M m i| * |invM M i l| * |X l j| ≤ r := by
  set d := M 0 0 * M 1 1 - M 0 1 * M 1 0 with hd'
  have hd0 : 0 < d := hD.trans_le hd
  have hx0 : 0 ≤ x := (abs_nonneg _).trans (hx 0 0)
  have k00 := (abs_nonneg _).trans h00
  have k01 := (abs_nonneg _).trans h01
  have k11 := (abs_nonneg _).trans h11
  have hi : ∀ y b : ℝ, |y| ≤ b → |1 / d * y| ≤ b / D := fun y b h => by
    have hb := (abs_nonneg _).trans h
    rw [abs_mul, abs_of_pos (by positivity : 0 < 1 / d), div_mul_eq_mul_div, one_mul]
    exact div_le_div₀ hb h hD hd
  have i00 : |invM M 0 0| ≤ m11 / D := hi (M 1 1) m11 h11
  have i01 : |invM M 0 1| ≤ m01 / D := hi (-M 0 1) m01 (by rwa [abs_neg])
  have i10 : |invM M 1 0| ≤ m01 / D := hi (-M 1 0) m01 (by rwa [abs_neg, z])
  have i11 : |invM M 1 1| ≤ m00 / D := hi (M 0 0) m00 h00
  have w : wob ^ 17 - 1 ≤ 1 / 2 ^ 46 := by unfold wob; norm_num
  have key : ∀ a b, |M m 0| ≤ a → |M m 1| ≤ b → (a * (m11 + m01) + b * (m01 + m00)) * x ≤ 2 ^ 46 * r * D →
      (wob ^ 17 - 1) * ∑ i, ∑ l, |M m i| * |invM M i l| * |X l j| ≤ r := fun a b ha hb hc => by
    have ka := (abs_nonneg _).trans ha
    have kb := (abs_nonneg _).trans hb
    have t : ∀ {p q s p' q' s' : ℝ}, |p| ≤ p' → |q| ≤ q' → |s| ≤ s' → |p| * |q| * |s| ≤ p' * q' * s' := by
      intro p q s p' q' s' h1 h2 h3
      exact mul_le_mul (mul_le_mul h1 h2 (abs_nonneg _) ((abs_nonneg _).trans h1)) h3 (abs_nonneg _)
        (mul_nonneg ((abs_nonneg _).trans h1) ((abs_nonneg _).trans h2))
    have hs : ∑ i, ∑ l, |M m i| * |invM M i l| * |X l j| ≤ 2 ^ 46 * r := by
      rw [Fin.sum_univ_two, Fin.sum_univ_two, Fin.sum_univ_two]
      have t1 := t ha i00 (hx 0 j)
      have t2 := t ha i01 (hx 1 j)
      have t3 := t hb i10 (hx 0 j)
      have t4 := t hb i11 (hx 1 j)
      have e : a * (m11 / D) * x + a * (m01 / D) * x + (b * (m01 / D) * x + b * (m00 / D) * x) =
          (a * (m11 + m01) + b * (m01 + m00)) * x / D := by field_simp
      have h1 : (a * (m11 + m01) + b * (m01 + m00)) * x / D ≤ 2 ^ 46 * r := by rwa [div_le_iff₀ hD]
      linarith
    have h0 : 0 ≤ ∑ i, ∑ l, |M m i| * |invM M i l| * |X l j| :=
      Finset.sum_nonneg fun i _ => Finset.sum_nonneg fun l _ => by positivity
    have h1 := mul_le_mul_of_nonneg_right w h0
    linarith
  fin_cases m
  · exact key m00 m01 h00 h01 c0
  · have h10 : |M 1 0| ≤ m01 := by rw [z]; exact h01
    exact key m01 m11 h10 h11 c1

/-- The computed state matrix is the exact one of matrices in slightly wider ranges. -/
theorem nearby_hold {O : Machine} (hO : RoundsRel O) {E : StableCheck.Entries} {c : Canon} (H : E.Hold c) {r : ℚ}
    (hr : E.conditioned r = true) (v g : ℝ) :
    ∃ c' : Canon, c'.M = c.M ∧ machineA O c v g = abA c'.M c'.C1 c'.K0 c'.K2 v g ∧ (E.loose r).Hold c' := by
  simp only [StableCheck.Entries.conditioned, Bool.and_eq_true, decide_eq_true_eq] at hr
  obtain ⟨⟨⟨r1, r2⟩, r3⟩, r4⟩ := hr
  set D := (StableCheck.mD E).lo with hD
  have hdet : ((D : ℚ) : ℝ) ≤ c.M 0 0 * c.M 1 1 - c.M 0 1 * c.M 1 0 := by
    rw [H.z1]
    exact ((H.M00.mul H.M11).sub (H.M01.mul H.M01)).1
  have hD0 : (0 : ℝ) < D := by exact_mod_cast r1
  have r2' : ((E.M00.sup : ℚ) : ℝ) * E.M11.sup + E.M01.sup * E.M01.sup ≤ 2 * D := by exact_mod_cast r2
  have r3' : (((E.M00.sup : ℚ) : ℝ) * (E.M11.sup + E.M01.sup) + E.M01.sup * (E.M01.sup + E.M00.sup)) * E.top ≤ 2 ^ 46 * r * D := by
    exact_mod_cast r3
  have r4' : (((E.M01.sup : ℚ) : ℝ) * (E.M11.sup + E.M01.sup) + E.M11.sup * (E.M01.sup + E.M00.sup)) * E.top ≤ 2 ^ 46 * r * D := by
    exact_mod_cast r4
  have s00 := H.M00.le_sup
  have s01 := H.M01.le_sup
  have s11 := H.M11.le_sup
  have hκ : |c.M 0 0 * c.M 1 1| + |c.M 0 1 * c.M 1 0| ≤ 2 * (c.M 0 0 * c.M 1 1 - c.M 0 1 * c.M 1 0) := by
    rw [abs_mul, abs_mul, show |c.M 1 0| = |c.M 0 1| by rw [H.z1]]
    have h1 := mul_le_mul s00 s11 (abs_nonneg _) ((abs_nonneg _).trans s00)
    have h2 := mul_le_mul s01 s01 (abs_nonneg _) ((abs_nonneg _).trans s01)
    linarith
  obtain ⟨c', e1, e2, e3, e4, e5, e6⟩ := state_nearby hO c v g (by rw [det_fin_two]; exact hD0.trans_le hdet) hκ
  have top : ∀ {b : Box} {x : ℝ}, b.Has x → b.sup ≤ E.top → |x| ≤ E.top := fun h h' =>
    h.le_sup.trans (by exact_mod_cast h')
  have t0 : |(0 : ℝ)| ≤ E.top := by
    rw [abs_zero]; exact (abs_nonneg _).trans (top H.K00 (by simp [StableCheck.Entries.top]))
  have tK : ∀ l j, |c.K0 l j| ≤ E.top := fun l j => by
    fin_cases l <;> fin_cases j
    · exact top H.K00 (by simp [StableCheck.Entries.top])
    · exact top H.K01 (by simp [StableCheck.Entries.top])
    · exact top (b := E.K01) (by show E.K01.Has (c.K0 1 0); rw [H.z2]; exact H.K01) (by simp [StableCheck.Entries.top])
    · exact top H.K11 (by simp [StableCheck.Entries.top])
  have tL : ∀ l j, |c.K2 l j| ≤ E.top := fun l j => by
    fin_cases l <;> fin_cases j
    · show |c.K2 0 0| ≤ _; rw [H.z3]; exact t0
    · exact top H.L01 (by simp [StableCheck.Entries.top])
    · show |c.K2 1 0| ≤ _; rw [H.z4]; exact t0
    · exact top H.L11 (by simp [StableCheck.Entries.top])
  have tC : ∀ l j, |c.C1 l j| ≤ E.top := fun l j => by
    fin_cases l <;> fin_cases j
    · show |c.C1 0 0| ≤ _; rw [H.z5]; exact t0
    · exact top H.C01 (by simp [StableCheck.Entries.top])
    · exact top H.C10 (by simp [StableCheck.Entries.top])
    · exact top H.C11 (by simp [StableCheck.Entries.top])
  have nK := fun m j => (e4 m j).trans (row_bound c.M c.K0 H.z1 _ _ _ _ _ _ s00 s01 s11 tK hD0 hdet r3' r4' m j)
  have nL := fun m j => (e5 m j).trans (row_bound c.M c.K2 H.z1 _ _ _ _ _ _ s00 s01 s11 tL hD0 hdet r3' r4' m j)
  have nC := fun m j => (e6 m j).trans (row_bound c.M c.C1 H.z1 _ _ _ _ _ _ s00 s01 s11 tC hD0 hdet r3' r4' m j)
  have zK : ∀ l, c.K2 l 0 = 0 := fun l => by fin_cases l <;> [exact H.z3; exact H.z4]
  have hK10 : E.K01.Has (c.K0 1 0) := by rw [H.z2]; exact H.K01
  have hC00 : (Box.pt 0).Has (c.C1 0 0) := by rw [H.z5]; have := Box.has_pt 0; push_cast at this; exact this
  have H' : (E.loose r).Hold c' := ⟨by rw [e1]; exact H.M00, by rw [e1]; exact H.M01, by rw [e1]; exact H.M11,
    H.K00.widen (nK 0 0), H.K01.widen (nK 0 1), hK10.widen (nK 1 0), H.K11.widen (nK 1 1), H.L01.widen (nL 0 1),
    H.L11.widen (nL 1 1), hC00.widen (nC 0 0), H.C01.widen (nC 0 1), H.C10.widen (nC 1 0), H.C11.widen (nC 1 1),
    by rw [e1]; exact H.z1, e3 0 zK 0, e3 0 zK 1⟩
  exact ⟨c', e1, e2, H'⟩

/-- The range of the speeds for the computed state matrix. -/
theorem machine_range {O : Machine} (hO : RoundsRel O) {E : StableCheck.Entries} {c : Canon} (H : E.Hold c) {r : ℚ}
    (hr : E.conditioned r = true) {G : Box} {g : ℝ} (hG : G.Has g) {lo hi lo' hi' : ℚ}
    (hs : (E.loose r).signs G lo hi lo' hi' = true) (v : ℝ) :
    ((hi : ℝ) ≤ v → v ≤ lo' → ∀ l : ℂ, IsEigenvalue (toC (machineA O c v g)) l → l.re < 0) ∧
    (v ≤ lo ∨ (hi' : ℝ) ≤ v → ∃ l : ℂ, IsEigenvalue (toC (machineA O c v g)) l ∧ 0 ≤ l.re) := by
  obtain ⟨c', -, e2, H'⟩ := nearby_hold hO H hr v g
  obtain ⟨vw, vc, h1, h2, h3⟩ := Loose.range H' hG hs
  rw [e2]
  refine ⟨fun a b => (h3 v).2 ⟨by linarith [h1.2], by linarith [h2.1]⟩, fun h => ?_⟩
  by_contra hn
  push Not at hn
  have := (h3 v).1 hn
  rcases h with h | h
  · linarith [h1.1, this.1]
  · linarith [h2.2, this.2]

end BP
