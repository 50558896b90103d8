import Verif.Props.Canonical

/-!
# C143: the Whipple model does not depend on the units

Masses, lengths and times in other units.
-/

set_option linter.unusedSimpArgs false
set_option linter.unusedSectionVars false

namespace BP

open Real Matrix Spec

/-! ## Specification -/

/-- The factor of the number stored under a key of a benchmark dictionary when a mass is `m` times and a length `L` times
as many of the new units: masses, lengths, moments of inertia; the tilt is an angle. -/
def Spec.unitFactor (m L : ℝ) (key : String) : ℝ :=
  if key ∈ ["mR", "mB", "mH", "mF"] then m
  else if key ∈ ["w", "c", "rR", "rF", "xB", "zB", "xH", "zH"] then L
  else if key ∈ ["IRxx", "IRyy", "IBxx", "IBxz", "IBzz", "IHxx", "IHxz", "IHzz", "IFxx", "IFyy"] then m * L ^ 2
  else 1

/-- The dictionary in the new units. -/
def Spec.inNewUnits (m L : ℝ) (d : Dict ℝ) : Dict ℝ := d.map fun e => (e.1, unitFactor m L e.1 * e.2)

/-! ## The values read -/

/-- The bicycle in the new units. -/
def Bench.scaled (m L : ℝ) (p : Bench) : Bench :=
  { w := L * p.w, c := L * p.c, lam := p.lam, rR := L * p.rR, mR := m * p.mR, IRxx := m * L ^ 2 * p.IRxx,
    IRyy := m * L ^ 2 * p.IRyy, xB := L * p.xB, zB := L * p.zB, mB := m * p.mB, IBxx := m * L ^ 2 * p.IBxx,
    IBxz := m * L ^ 2 * p.IBxz, IBzz := m * L ^ 2 * p.IBzz, xH := L * p.xH, zH := L * p.zH, mH := m * p.mH,
    IHxx := m * L ^ 2 * p.IHxx, IHxz := m * L ^ 2 * p.IHxz, IHzz := m * L ^ 2 * p.IHzz, rF := L * p.rF, mF := m * p.mF,
    IFxx := m * L ^ 2 * p.IFxx, IFyy := m * L ^ 2 * p.IFyy }

theorem inUnits_find? (m L : ℝ) (d : Dict ℝ) (k : String) :
    (inNewUnits m L d).find? k = (d.find? k).map (unitFactor m L k * ·) := by
  induction d with
  | nil => rfl
  | cons e rest ih =>
    obtain ⟨k', x⟩ := e
    simp only [inNewUnits, List.map_cons] at ih ⊢
    by_cases h : k' = k
    · subst h; simp [Dict.find?]
    · simpa [Dict.find?, h] using ih

theorem inUnits_getD (m L : ℝ) (d : Dict ℝ) (k : String) :
    (inNewUnits m L d).getD k 0 = unitFactor m L k * d.getD k 0 := by
  simp only [Dict.getD, inUnits_find?]
  cases d.find? k <;> simp

theorem ofDict_inUnits (m L : ℝ) (d : Dict ℝ) : Bench.ofDict (inNewUnits m L d) = (Bench.ofDict d).scaled m L := by
  simp only [Bench.ofDict, Bench.scaled, inUnits_getD, unitFactor]
  simp

/-! ## The quantities of the model -/

section
variable {m L : ℝ} (hm : m ≠ 0) (hL : L ≠ 0) (p : Bench)
include hm hL

theorem scaled_mT : (p.scaled m L).mT = m * p.mT := by simp only [Bench.scaled, Bench.mT]; ring
theorem scaled_xT : (p.scaled m L).xT = L * p.xT := by
  simp only [Bench.xT, scaled_mT hm hL]
  rw [show (p.scaled m L).xB * (p.scaled m L).mB + (p.scaled m L).xH * (p.scaled m L).mH +
    (p.scaled m L).w * (p.scaled m L).mF = m * (L * (p.xB * p.mB + p.xH * p.mH + p.w * p.mF)) by
      simp only [Bench.scaled]; ring, mul_div_mul_left _ _ hm, mul_div_assoc]
theorem scaled_zT : (p.scaled m L).zT = L * p.zT := by
  simp only [Bench.zT, scaled_mT hm hL]
  rw [show -(p.scaled m L).rR * (p.scaled m L).mR + (p.scaled m L).zB * (p.scaled m L).mB +
    (p.scaled m L).zH * (p.scaled m L).mH - (p.scaled m L).rF * (p.scaled m L).mF =
      m * (L * (-p.rR * p.mR + p.zB * p.mB + p.zH * p.mH - p.rF * p.mF)) by
      simp only [Bench.scaled]; ring, mul_div_mul_left _ _ hm, mul_div_assoc]
theorem scaled_ITxx : (p.scaled m L).ITxx = m * L ^ 2 * p.ITxx := by simp only [Bench.scaled, Bench.ITxx]; ring
theorem scaled_ITxz : (p.scaled m L).ITxz = m * L ^ 2 * p.ITxz := by simp only [Bench.scaled, Bench.ITxz]; ring
theorem scaled_ITzz : (p.scaled m L).ITzz = m * L ^ 2 * p.ITzz := by
  simp only [Bench.scaled, Bench.ITzz, Bench.IRzz, Bench.IFzz]; ring
theorem scaled_mA : (p.scaled m L).mA = m * p.mA := by simp only [Bench.scaled, Bench.mA]; ring
theorem scaled_xA : (p.scaled m L).xA = L * p.xA := by
  simp only [Bench.xA, scaled_mA hm hL]
  rw [show (p.scaled m L).xH * (p.scaled m L).mH + (p.scaled m L).w * (p.scaled m L).mF =
    m * (L * (p.xH * p.mH + p.w * p.mF)) by
      simp only [Bench.scaled]; ring, mul_div_mul_left _ _ hm, mul_div_assoc]
theorem scaled_zA : (p.scaled m L).zA = L * p.zA := by
  simp only [Bench.zA, scaled_mA hm hL]
  rw [show (p.scaled m L).zH * (p.scaled m L).mH - (p.scaled m L).rF * (p.scaled m L).mF =
    m * (L * (p.zH * p.mH - p.rF * p.mF)) by
      simp only [Bench.scaled]; ring, mul_div_mul_left _ _ hm, mul_div_assoc]
theorem scaled_IAxx : (p.scaled m L).IAxx = m * L ^ 2 * p.IAxx := by
  simp only [Bench.IAxx, scaled_zA hm hL]; simp only [Bench.scaled]; ring
theorem scaled_IAxz : (p.scaled m L).IAxz = m * L ^ 2 * p.IAxz := by
  simp only [Bench.IAxz, scaled_zA hm hL, scaled_xA hm hL]; simp only [Bench.scaled]; ring
theorem scaled_IAzz : (p.scaled m L).IAzz = m * L ^ 2 * p.IAzz := by
  simp only [Bench.IAzz, Bench.IFzz, scaled_xA hm hL]; simp only [Bench.scaled]; ring
theorem scaled_uA : (p.scaled m L).uA = L * p.uA := by
  simp only [Bench.uA, scaled_zA hm hL, scaled_xA hm hL]; simp only [Bench.scaled]; ring
theorem scaled_lam : (p.scaled m L).lam = p.lam := rfl
theorem scaled_IAll : (p.scaled m L).IAll = m * L ^ 2 * p.IAll := by
  simp only [Bench.IAll, scaled_mA hm hL, scaled_uA hm hL, scaled_IAxx hm hL, scaled_IAxz hm hL, scaled_IAzz hm hL,
    scaled_lam hm hL]; ring
theorem scaled_IAlx : (p.scaled m L).IAlx = m * L ^ 2 * p.IAlx := by
  simp only [Bench.IAlx, scaled_mA hm hL, scaled_uA hm hL, scaled_zA hm hL, scaled_IAxx hm hL, scaled_IAxz hm hL,
    scaled_lam hm hL]; ring
theorem scaled_IAlz : (p.scaled m L).IAlz = m * L ^ 2 * p.IAlz := by
  simp only [Bench.IAlz, scaled_mA hm hL, scaled_uA hm hL, scaled_xA hm hL, scaled_IAxz hm hL, scaled_IAzz hm hL,
    scaled_lam hm hL]; ring
theorem scaled_mu : (p.scaled m L).mu = p.mu := by
  simp only [Bench.mu, scaled_lam hm hL]
  rw [show (p.scaled m L).c / (p.scaled m L).w = L * p.c / (L * p.w) from rfl, mul_div_mul_left _ _ hL]
theorem scaled_SR : (p.scaled m L).SR = m * L * p.SR := by
  simp only [Bench.SR]
  rw [show (p.scaled m L).IRyy / (p.scaled m L).rR = m * L ^ 2 * p.IRyy / (L * p.rR) from rfl,
    show m * L ^ 2 * p.IRyy = L * (m * L * p.IRyy) by ring, mul_div_mul_left _ _ hL, mul_div_assoc]
theorem scaled_SF : (p.scaled m L).SF = m * L * p.SF := by
  simp only [Bench.SF]
  rw [show (p.scaled m L).IFyy / (p.scaled m L).rF = m * L ^ 2 * p.IFyy / (L * p.rF) from rfl,
    show m * L ^ 2 * p.IFyy = L * (m * L * p.IFyy) by ring, mul_div_mul_left _ _ hL, mul_div_assoc]
theorem scaled_ST : (p.scaled m L).ST = m * L * p.ST := by
  simp only [Bench.ST, scaled_SR hm hL, scaled_SF hm hL]; ring
theorem scaled_SA : (p.scaled m L).SA = m * L * p.SA := by
  simp only [Bench.SA, scaled_mA hm hL, scaled_uA hm hL, scaled_mu hm hL, scaled_mT hm hL, scaled_xT hm hL]; ring

theorem scaled_div_w (a x : ℝ) : a * L * x / (p.scaled m L).w = a * (x / p.w) := by
  rw [show (p.scaled m L).w = L * p.w from rfl, show a * L * x = L * (a * x) by ring, mul_div_mul_left _ _ hL,
    mul_div_assoc]

theorem scaled_canon : (p.scaled m L).canon =
    ⟨(m * L ^ 2) • p.canon.M, (m * L) • p.canon.C1, (m * L) • p.canon.K0, m • p.canon.K2⟩ := by
  unfold Bench.canon
  congr 1
  · ext i j
    fin_cases i <;> fin_cases j <;>
      simp [Bench.M, scaled_ITxx hm hL, scaled_IAlx hm hL, scaled_mu hm hL, scaled_ITxz hm hL, scaled_IAll hm hL,
        scaled_IAlz hm hL, scaled_ITzz hm hL] <;> ring
  · have e1 : (p.scaled m L).ITxz / (p.scaled m L).w = m * L * (p.ITxz / p.w) := by
      rw [scaled_ITxz hm hL, ← scaled_div_w hm hL p]; ring_nf
    have e2 : (p.scaled m L).IAlz / (p.scaled m L).w = m * L * (p.IAlz / p.w) := by
      rw [scaled_IAlz hm hL, ← scaled_div_w hm hL p]; ring_nf
    have e3 : (p.scaled m L).ITzz / (p.scaled m L).w = m * L * (p.ITzz / p.w) := by
      rw [scaled_ITzz hm hL, ← scaled_div_w hm hL p]; ring_nf
    ext i j
    fin_cases i <;> fin_cases j <;>
      simp [Bench.C1, e1, e2, e3, scaled_mu hm hL, scaled_ST hm hL, scaled_SF hm hL, scaled_SA hm hL, scaled_mT hm hL,
        scaled_zT hm hL, scaled_lam hm hL] <;> ring
  · ext i j
    fin_cases i <;> fin_cases j <;>
      simp [Bench.K0, scaled_SA hm hL, scaled_mT hm hL, scaled_zT hm hL, scaled_lam hm hL] <;> ring
  · have e1 : ((p.scaled m L).ST - (p.scaled m L).mT * (p.scaled m L).zT) / (p.scaled m L).w =
        m * ((p.ST - p.mT * p.zT) / p.w) := by
      rw [scaled_ST hm hL, scaled_mT hm hL, scaled_zT hm hL, ← scaled_div_w hm hL p]; ring_nf
    have e2 : ((p.scaled m L).SA + (p.scaled m L).SF * sin p.lam) / (p.scaled m L).w =
        m * ((p.SA + p.SF * sin p.lam) / p.w) := by
      rw [scaled_SA hm hL, scaled_SF hm hL, ← scaled_div_w hm hL p]; ring_nf
    ext i j
    fin_cases i <;> fin_cases j <;> simp [Bench.K2, e1, e2, scaled_lam hm hL] <;> ring

end

/-- **C143.** In other units of mass and length, `benchmark_par_to_canonical` of the same bicycle returns each matrix
multiplied by the factor of its dimension: mass·length² (M), mass·length (C1 and K0), mass (K2). -/
theorem C143_canonical_units (m L : ℝ) (hm : 0 < m) (hL : 0 < L) (d d' : Dict ℝ) (c : Canon)
    (h : benchmarkParToCanonical d = (d', .ok c)) :
    ∃ d'', benchmarkParToCanonical (inNewUnits m L d) =
      (d'', .ok ⟨(m * L ^ 2) • c.M, (m * L) • c.C1, (m * L) • c.K0, m • c.K2⟩) := by
  obtain ⟨hkeys, -, rfl⟩ := canonical_ok d d' c h
  have hkeys' : ∀ key ∈ canonKeys, Dict.has (inNewUnits m L d) key = true := by
    intro k hk
    have := hkeys k hk
    rw [Dict.has_iff_exists] at this ⊢
    obtain ⟨x, hx⟩ := this
    exact ⟨_, by rw [inUnits_find?, hx]; rfl⟩
  have h2 := canonical_of_keys _ hkeys'
  rw [ofDict_inUnits, scaled_canon hm.ne' hL.ne'] at h2
  exact ⟨_, h2⟩

theorem invM_smul (k : ℝ) (hk : k ≠ 0) (M : Mat2 ℝ) : invM (k • M) = k⁻¹ • invM M := by
  have h : ∀ d x : ℝ, 1 / (k * k * d) * (k * x) = k⁻¹ * (1 / d * x) := by
    intro d x
    rw [show 1 / (k * k * d) * (k * x) = k * x / (k * (k * d)) by ring, mul_div_mul_left _ _ hk, div_mul_eq_div_div]
    ring
  have hd : k * M 0 0 * (k * M 1 1) - k * M 0 1 * (k * M 1 0) = k * k * (M 0 0 * M 1 1 - M 0 1 * M 1 0) := by ring
  ext i j
  fin_cases i <;> fin_cases j <;>
    simp only [invM, Matrix.smul_apply, smul_eq_mul, hd, Matrix.of_apply, Matrix.cons_val', Matrix.cons_val_zero,
      Matrix.cons_val_one, Matrix.cons_val_fin_one, Fin.zero_eta, Fin.mk_one, ← mul_neg, h]

/-- **C143.** With the speed and the gravity in the new units too (`T` times as many of the new units of time), the state
and input matrices of `ab_matrix` change by the factors of states, rates and torques: angles have none, their rates `1/T`,
and torques `m L²/T²`. -/
theorem C143_state_space_units (m L T : ℝ) (hm : 0 < m) (hL : 0 < L) (hT : 0 < T) (c : Canon) (v g : ℝ) :
    let s : Fin 4 → ℝ := ![1, 1, 1 / T, 1 / T]
    (∀ i j, abA ((m * L ^ 2) • c.M) ((m * L) • c.C1) ((m * L) • c.K0) (m • c.K2) (v * (L / T)) (g * (L / T ^ 2)) i j =
      s i / T / s j * abA c.M c.C1 c.K0 c.K2 v g i j) ∧
    ∀ i j, abB ((m * L ^ 2) • c.M) i j = s i / T / (m * L ^ 2 / T ^ 2) * abB c.M i j := by
  have hm' := hm.ne'
  have hL' := hL.ne'
  have hT' := hT.ne'
  have hk : m * L ^ 2 ≠ 0 := by positivity
  have hi := invM_smul (m * L ^ 2) hk c.M
  have h21 : a21 ((m * L ^ 2) • c.M) ((m * L) • c.K0) (m • c.K2) (v * (L / T)) (g * (L / T ^ 2)) =
      (1 / T ^ 2) • a21 c.M c.K0 c.K2 v g := by
    unfold a21
    rw [hi, show (g * (L / T ^ 2)) • (m * L) • c.K0 + (v * (L / T)) ^ 2 • m • c.K2 =
      (m * L ^ 2 / T ^ 2) • (g • c.K0 + v ^ 2 • c.K2) by
        rw [smul_add, smul_smul, smul_smul, smul_smul, smul_smul]
        congr 2 <;> ring, Matrix.smul_mul, Matrix.mul_smul, smul_smul, smul_neg]
    congr 2
    field_simp
  have h22 : a22 ((m * L ^ 2) • c.M) ((m * L) • c.C1) (v * (L / T)) = (1 / T) • a22 c.M c.C1 v := by
    unfold a22
    rw [hi, show (v * (L / T)) • (m * L) • c.C1 = (m * L ^ 2 / T) • v • c.C1 by
        rw [smul_smul, smul_smul]
        congr 1; ring, Matrix.smul_mul, Matrix.mul_smul, smul_smul, smul_neg]
    congr 2
    field_simp
  constructor
  · intro i j
    simp only [abA, h21, h22]
    fin_cases i <;> fin_cases j <;> simp <;> field_simp <;> simp
  · intro i j
    simp only [abB, hi]
    fin_cases i <;> fin_cases j <;> simp <;> field_simp <;> simp

/-- **C143.** ... and the eigenvalues are the same rates, expressed in the new unit of time. -/
theorem C143_eigenvalues_units (m L T : ℝ) (hm : 0 < m) (hL : 0 < L) (hT : 0 < T) (c : Canon) (v g : ℝ)
    (hM : c.M.det ≠ 0) (l : ℂ) :
    IsEigenvalue (toC (abA ((m * L ^ 2) • c.M) ((m * L) • c.C1) ((m * L) • c.K0) (m • c.K2) (v * (L / T))
      (g * (L / T ^ 2)))) (l / T) ↔ IsEigenvalue (toC (abA c.M c.C1 c.K0 c.K2 v g)) l := by
  have hd : ((m * L ^ 2) • c.M).det = (m * L ^ 2) ^ 2 * c.M.det := by
    simp only [det_fin_two, Matrix.smul_apply, smul_eq_mul]; ring
  have hM' : ((m * L ^ 2) • c.M).det ≠ 0 := by rw [hd]; positivity
  rw [C02_eigenvalues_are_roots _ _ _ _ _ _ _ hM', C02_eigenvalues_are_roots _ _ _ _ _ _ _ hM]
  have hT' : (T : ℂ) ≠ 0 := by exact_mod_cast hT.ne'
  have hf : ((m : ℂ) * L ^ 2 / T ^ 2) ^ 2 ≠ 0 := by
    have h1 : (m : ℂ) ≠ 0 := by exact_mod_cast hm.ne'
    have h2 : (L : ℂ) ≠ 0 := by exact_mod_cast hL.ne'
    positivity
  refine Iff.trans (iff_of_eq (congrArg (· = 0) ?_)) (mul_eq_zero_iff_left hf)
  simp only [toC, det_fin_two, Matrix.add_apply, Matrix.smul_apply, Matrix.map_apply, smul_eq_mul]
  push_cast
  field_simp

/-- non-vacuity of C143: a complete dictionary in grams and centimetres -/
example : ∃ d' c, benchmarkParToCanonical exampleDict = (d', .ok c) ∧
    ∃ d'', benchmarkParToCanonical (inNewUnits 1000 100 exampleDict) =
      (d'', .ok ⟨((1000 : ℝ) * 100 ^ 2) • c.M, ((1000 : ℝ) * 100) • c.C1, ((1000 : ℝ) * 100) • c.K0, (1000 : ℝ) • c.K2⟩) := by
  have hk : ∀ key ∈ canonKeys, Dict.has exampleDict key = true := by
    intro key hk
    simp only [canonKeys, canonKeysBefore, canonKeysAfter, List.cons_append, List.nil_append,
      List.mem_cons, List.not_mem_nil, or_false] at hk
    rcases hk with h | h | h | h | h | h | h | h | h | h | h | h | h | h | h | h | h | h | h | h | h | h | h <;>
      subst h <;> simp [exampleDict, Dict.has, Dict.find?]
  exact ⟨_, _, canonical_of_keys _ hk,
    C143_canonical_units 1000 100 (by norm_num) (by norm_num) _ _ _ (canonical_of_keys _ hk)⟩

/-- non-vacuity of C143_eigenvalues_units: a falling motion with the rate 1 per second has the rate 1/1000 per millisecond -/
example : IsEigenvalue (toC (abA (((1000 : ℝ) * 100 ^ 2) • (1 : Mat2 ℝ)) (((1000 : ℝ) * 100) • 0) (((1000 : ℝ) * 100) • (-1))
    ((1000 : ℝ) • 0) (0 * (100 / 1000)) (1 * (100 / 1000 ^ 2)))) (1 / (1000 : ℝ)) := by
  have h := (C143_eigenvalues_units 1000 100 1000 (by norm_num) (by norm_num) (by norm_num) ⟨1, 0, -1, 0⟩ 0 1 (by simp) 1).2
  refine h ((C02_eigenvalues_are_roots _ _ _ _ _ _ _ (by simp)).2 ?_)
  simp [toC, det_fin_two]

end BP
