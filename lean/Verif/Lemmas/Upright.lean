import Verif.Lemmas.UprightChecks
import Verif.Lemmas.EvalLinearChecks

/-!
# The upright bicycle: what the checks establish
-/

set_option linter.unusedSimpArgs false

namespace BP.EL

open Real

/-- The parameters found in the cells. -/
noncomputable def memLP (m : ℕ → ℝ) : LP ℝ where
  s := sin (m 5084)
  c := cos (m 5084)
  u6 := m 5041
  c9 := m 5048
  d1 := m 5049
  d2 := m 5050
  d3 := m 5051
  d4 := m 5052
  g := m 5053
  ic11 := m 5054
  ic31 := m 5056
  ic33 := m 5057
  id11 := m 5058
  id22 := m 5059
  ie11 := m 5060
  ie31 := m 5062
  ie33 := m 5063
  if11 := m 5064
  if22 := m 5065
  ig11 := m 5066
  ig31 := m 5068
  ig33 := m 5069
  k9 := m 5070
  l1 := m 5071
  l2 := m 5072
  l3 := m 5073
  l4 := m 5074
  l5 := m 5075
  l6 := m 5076
  mc := m 5077
  md := m 5078
  me := m 5079
  mf := m 5080
  mg := m 5081
  rf := m 5082
  rr := m 5083

section val

variable (m : ℕ → ℝ) (a b : E)

theorem val_add : (a + b).val real m = a.val real m + b.val real m := rfl
theorem val_sub : (a - b).val real m = a.val real m - b.val real m := rfl
theorem val_mul : (a * b).val real m = a.val real m * b.val real m := rfl
theorem val_div : (a / b).val real m = a.val real m / b.val real m := rfl
theorem val_neg : (-a).val real m = -a.val real m := rfl
theorem val_zero : (0 : E).val real m = 0 := by
  change ((0 : ℕ) : ℝ) = 0; simp
theorem val_one : (1 : E).val real m = 1 := by
  change ((1 : ℕ) : ℝ) = 1; simp
theorem val_z (l : ℕ) : (E.z l).val real m = m l := rfl
theorem val_sin : (E.sin a).val real m = sin (a.val real m) := rfl
theorem val_cos : (E.cos a).val real m = cos (a.val real m) := rfl

end val

/-- The expressions mean the numbers. -/
theorem val_mass (m : ℕ → ℝ) (i j : Fin 3) : (cellLP.mass i j).val real m = (memLP m).mass i j := by
  fin_cases i <;> fin_cases j <;>
    simp only [LP.mass, LP.momT, LP.momA, LP.momC, LP.momD, LP.momE, LP.momF, LP.momG, Mom.plus, Mom.of,
      LP.lx, LP.ll, LP.lz, LP.mu, LP.wc, LP.ct, LP.w, LP.turnxx, LP.turnxz, LP.turnzz, LP.xC, LP.zC, LP.xE,
      LP.zE, LP.zG, val_add, val_sub, val_mul, val_div, val_neg, val_zero, val_one, val_z, val_sin, val_cos,
      cellLP, memLP]

theorem val_damp (m : ℕ → ℝ) (i j : Fin 3) : (cellLP.damp i j).val real m = (memLP m).damp i j := by
  fin_cases i <;> fin_cases j <;>
    simp only [LP.damp, LP.momT, LP.momA, LP.momC, LP.momD, LP.momE, LP.momF, LP.momG, Mom.plus, Mom.of,
      LP.lx, LP.ll, LP.lz, LP.mu, LP.kap, LP.HR, LP.HF, LP.v, LP.S, LP.wc, LP.ct, LP.w, LP.turnxx, LP.turnxz,
      LP.turnzz, LP.xC, LP.zC, LP.xE,
      LP.zE, LP.zG, val_add, val_sub, val_mul, val_div, val_neg, val_zero, val_one, val_z, val_sin, val_cos,
      cellLP, memLP]

theorem val_stiff (m : ℕ → ℝ) (i j : Fin 3) : (cellLP.stiff i j).val real m = (memLP m).stiff i j := by
  fin_cases i <;> fin_cases j <;>
    simp only [LP.stiff, LP.momT, LP.momA, LP.momC, LP.momD, LP.momE, LP.momF, LP.momG, Mom.plus, Mom.of,
      LP.lx, LP.ll, LP.lz, LP.mu, LP.kap, LP.HR, LP.HF, LP.v, LP.S, LP.wc, LP.ct, LP.w, LP.turnxx, LP.turnxz,
      LP.turnzz, LP.xC, LP.zC, LP.xE,
      LP.zE, LP.zG, val_add, val_sub, val_mul, val_div, val_neg, val_zero, val_one, val_z, val_sin, val_cos,
      cellLP, memLP]

theorem val_drive (m : ℕ → ℝ) : cellLP.drive.val real m = (memLP m).drive := by
  simp only [LP.drive, val_add, val_mul, val_div, val_z, cellLP, memLP]

theorem val_kin (m : ℕ → ℝ) : cellLP.v.val real m = (memLP m).v ∧ cellLP.kap.val real m = (memLP m).kap ∧
    cellLP.mu.val real m = (memLP m).mu := by
  simp only [LP.mu, LP.kap, LP.v, LP.w, LP.ct, val_add, val_sub, val_mul, val_div, val_neg, val_z, val_sin,
    val_cos, cellLP, memLP, and_self]

/-- What the final cells of an upright bicycle satisfy: the arguments. -/
structure Upright (m : ℕ → ℝ) : Prop where
  pitch : m 5035 = m 5084
  zero : ∀ k : Fin 52, k.1 < 15 ∧ k ≠ 8 → k ≠ 2 → m (5033 + k) = 0
  closure : m 5082 - m 5083 + m 5050 * cos (m 5084) = (m 5049 + m 5051) * sin (m 5084)
  w : (memLP m).w ≠ 0
  rf : m 5082 ≠ 0

/-- The values of the variables of the table. -/
noncomputable def uprightVal (m : ℕ → ℝ) (D : ℝ) (p : ℕ) : ℝ :=
  if p = 2 then sin (m 5084) else if p = 19 then cos (m 5084) else if p = 3 then (memLP m).w
  else if p = 5 then (memLP m).w⁻¹ else if p = 11 then (m 5082)⁻¹ else if p = 13 then D
  else if p = 17 then D⁻¹ else ((uprightVars.find? fun s => s.1 == p).map fun t => m t.2).getD 0

theorem uprightVal_var (m : ℕ → ℝ) (D : ℝ) (t : ℕ × ℕ) (ht : t ∈ uprightVars) :
    uprightVal m D t.1 = m t.2 := by
  obtain ⟨-, -, h1, h2⟩ := vars_table t ht
  simp only [List.mem_cons, List.not_mem_nil, or_false, not_or] at h1
  unfold uprightVal
  rw [if_neg h1.1, if_neg h1.2.2.2.2.2.2, if_neg h1.2.1, if_neg h1.2.2.1, if_neg h1.2.2.2.1,
    if_neg h1.2.2.2.2.1, if_neg h1.2.2.2.2.2.1, h2]
  rfl

theorem uprightVal_7 (m : ℕ → ℝ) (D : ℝ) : uprightVal m D 7 = m 5082 :=
  uprightVal_var m D (7, 5082) (by decide)

theorem upright_rels {m : ℕ → ℝ} (hm : Upright m) {D : ℝ} (hD : D ≠ 0) : Rels (uprightVal m D) where
  sq := by
    have := sin_sq_add_cos_sq (m 5084)
    simp only [uprightVal]
    norm_num
    linarith
  inv3 := by simp only [uprightVal]; norm_num; exact mul_inv_cancel₀ hm.w
  inv7 := by
    rw [uprightVal_7]
    simp only [uprightVal]; norm_num; exact mul_inv_cancel₀ hm.rf
  inv13 := by simp only [uprightVal]; norm_num; exact mul_inv_cancel₀ hD

theorem fits_var {m : ℕ → ℝ} (D : ℝ) (t : ℕ × ℕ) (ht : t ∈ uprightVars) (h1 : t.2 ≠ 5035) (h2 : t.2 ≠ 5084) :
    Fits (uprightVal m D) m uprightPoly t.2 := by
  refine ⟨fun h => by rcases h with h | h <;> contradiction, fun _ _ => ?_⟩
  obtain ⟨h3, h4, -, -⟩ := vars_table t ht
  rw [h3]
  simp [mono_prime _ h4, uprightVal_var m D t ht]

theorem vars_ne : ∀ t ∈ uprightVars, t.2 ≠ 5035 ∧ t.2 ≠ 5084 := by decide

/-- The arguments fit the table. -/
theorem fits_inputs {m : ℕ → ℝ} (hm : Upright m) (D : ℝ) (k : Fin 52) :
    Fits (uprightVal m D) m uprightPoly (5033 + k) := by
  have pit : ∀ l, l = 5035 ∨ l = 5084 → Fits (uprightVal m D) m uprightPoly l := by
    intro l hl
    refine ⟨fun _ => ?_, fun h1 h2 => by rcases hl with h | h <;> contradiction⟩
    have : m l = m 5084 := by rcases hl with rfl | rfl; exacts [hm.pitch, rfl]
    rw [this]
    exact ⟨by simp [uprightVal], by simp [uprightVal]⟩
  have m2 : ∀ a b : ℕ, a.Prime → b.Prime → mono (uprightVal m D) (a * b) = uprightVal m D a * uprightVal m D b := by
    intro a b ha hb
    rw [mono_mul, mono_prime _ ha, mono_prime _ hb]
  have v2 : uprightVal m D 2 = sin (m 5084) := by simp [uprightVal]
  have v19 : uprightVal m D 19 = cos (m 5084) := by simp [uprightVal]
  have v3 : uprightVal m D 3 = (memLP m).w := by simp [uprightVal]
  have v7 := uprightVal_7 m D
  have v31 : uprightVal m D 31 = m 5051 := uprightVal_var m D (31, 5051) (by decide)
  have v181 : uprightVal m D 181 = m 5083 := uprightVal_var m D (181, 5083) (by decide)
  have hw : (memLP m).w = (m 5049 + m 5051) * cos (m 5084) + m 5050 * sin (m 5084) := rfl
  have hsc := sin_sq_add_cos_sq (m 5084)
  rcases inputs_table k with h | h | h | h | ⟨t, ht, h⟩ | ⟨h, h0⟩
  · subst h; exact pit _ (Or.inl rfl)
  · subst h; exact pit _ (Or.inr rfl)
  · subst h
    refine ⟨fun h => by rcases h with h | h <;> simp at h, fun _ _ => ?_⟩
    change m 5049 = peval _ (uprightPoly.look 5049)
    rw [peq_eq d_table.1]
    simp only [peval_padd, peval_cons, peval_nil, m2 3 19 (by norm_num) (by norm_num),
      m2 2 7 (by norm_num) (by norm_num), m2 2 181 (by norm_num) (by norm_num),
      mono_prime _ (show Nat.Prime 31 by norm_num), v2, v19, v3, v7, v31, v181, hw]
    push_cast
    linear_combination -(m 5049 + m 5051) * hsc - sin (m 5084) * hm.closure
  · subst h
    refine ⟨fun h => by rcases h with h | h <;> simp at h, fun _ _ => ?_⟩
    change m 5050 = peval _ (uprightPoly.look 5050)
    rw [peq_eq d_table.2]
    simp only [peval_padd, peval_cons, peval_nil, m2 3 2 (by norm_num) (by norm_num),
      m2 19 7 (by norm_num) (by norm_num), m2 19 181 (by norm_num) (by norm_num), v2, v19, v3, v7, v181, hw]
    push_cast
    linear_combination -(m 5050) * hsc + cos (m 5084) * hm.closure
  · rw [← h]
    exact fits_var D t ht (vars_ne t ht).1 (vars_ne t ht).2
  · by_cases h2 : k = 2
    · subst h2; exact pit _ (Or.inl rfl)
    · refine ⟨fun h' => ?_, fun _ _ => ?_⟩
      · exfalso; rcases h' with h' | h'
        · exact h2 (Fin.ext (show k.1 = 2 by omega))
        · have := h.1; omega
      · rw [h0, hm.zero k h h2]; rfl

/-- The cells of a run, up to some point, fit the table. -/
theorem fits_cells {m : ℕ → ℝ} (hm : Upright m) (D : ℝ) (hD : D ≠ 0) (p : List (ℕ × E)) (hp : p ⊆ body)
    (d d' : ℕ) (hd : definedCheck p d d' = true) (hin : ∀ l, Nat.testBit d l = true → ∃ k : Fin 52, l = 5033 + k)
    (heq : ∀ s ∈ body, m s.1 = s.2.val real m) (h13 : (∃ s ∈ p, s.1 = 1001) → m 1001 = D) :
    ∀ l, Nat.testBit d' l = true → Fits (uprightVal m D) m uprightPoly l := by
  refine run_pred _ p d d' hd ?_ ?_
  · intro s hs e he h
    rcases polyCheck_mem body_poly (hp hs) with ha | ha
    · have ha' : s.1 ∈ uprightAtoms := by
        simp only [isAtom, List.any_eq_true, Nat.beq_eq] at ha
        obtain ⟨x, hx, e⟩ := ha
        rwa [e]
      by_cases h1 : s.1 = 1001
      · rw [h1]
        refine ⟨fun h => by rcases h with h | h <;> simp at h, fun _ _ => ?_⟩
        rw [det_table, h13 ⟨s, hs, h1⟩]
        simp [mono_prime _ (show Nat.Prime 13 by norm_num), uprightVal]
      · obtain ⟨t, ht, h2⟩ := atoms_vars s.1 ha' h1
        rw [← h2]
        exact fits_var D t ht (vars_ne t ht).1 (vars_ne t ht).2
    · have hv := isPoly_sound (upright_rels hm hD) m uprightPoly e h s.2 he _ ha
      refine ⟨fun h' => ?_, fun _ _ => by rw [heq s (hp hs), hv]⟩
      have hk : ∃ k : Fin 52, s.1 = 5033 + k := by
        rcases h' with h' | h'
        · exact ⟨2, by rw [h']; rfl⟩
        · exact ⟨51, by rw [h']; rfl⟩
      obtain ⟨k, hk⟩ := hk
      rw [hk] at h' ⊢
      exact (fits_inputs hm D k).pitch h'
  · intro l hl
    obtain ⟨k, rfl⟩ := hin l hl
    exact fits_inputs hm D k

theorem inputs_fin (l : ℕ) (h : Nat.testBit ((2 ^ 52 - 1) <<< 5033) l = true) : ∃ k : Fin 52, l = 5033 + k := by
  rw [Nat.testBit_shiftLeft, Nat.testBit_two_pow_sub_one] at h
  simp only [Bool.and_eq_true, decide_eq_true_eq] at h
  exact ⟨⟨l - 5033, by omega⟩, by simp; omega⟩

theorem closed_sound {m : ℕ → ℝ} {x : ℕ → ℝ} (hx : Rels x) (d l : ℕ) (e : E)
    (hf : ∀ l, Nat.testBit d l = true → Fits x m uprightPoly l)
    (heq : ∀ s ∈ body, m s.1 = s.2.val real m) (h : closed d l e = true) : m l = e.val real m := by
  unfold closed at h
  split at h
  · simp at h
  · rename_i s hs
    have h1 : s ∈ body := List.mem_of_find?_eq_some hs
    have h2 : s.1 = l := by simpa using List.find?_some hs
    rw [Bool.and_eq_true] at h
    have := isPoly_sound hx m uprightPoly d hf _ h.1 _ h.2
    have e2 : (E.sub s.2 e).val real m = s.2.val real m - e.val real m := rfl
    rw [e2, ← heq s h1, h2, peval_nil] at this
    linarith

theorem vanishes_sound {m : ℕ → ℝ} {x : ℕ → ℝ} (hx : Rels x) (d : ℕ) (e : E)
    (hf : ∀ l, Nat.testBit d l = true → Fits x m uprightPoly l)
    (h : vanishes d e = true) : e.val real m = 0 := by
  unfold vanishes at h
  rw [Bool.and_eq_true] at h
  exact isPoly_sound hx m uprightPoly d hf _ h.1 _ h.2

/-- The cells of the mass matrix. -/
theorem upright_mass {m : ℕ → ℝ} (hm : Upright m) (heq : ∀ s ∈ body, m s.1 = s.2.val real m) :
    (∀ i j, m (massAt i j) = (memLP m).mass i j) ∧ m 964 = (memLP m).drive ∧
    m 1001 = (memLP m).drive * det3 (memLP m).mass := by
  have hf := fits_cells hm 1 one_ne_zero before (List.take_subset _ _) _ _ before_defined inputs_fin heq (by
    rintro ⟨s, hs, h⟩
    have := List.all_eq_true.mp before_not s hs
    simp [h] at this)
  have hx := upright_rels hm (D := 1) one_ne_zero
  have h1 : ∀ i j, m (massAt i j) = (memLP m).mass i j := by
    intro i j
    rw [closed_sound hx _ _ _ hf heq (closed_mass i j), val_mass]
  have h2 : m 964 = (memLP m).drive := by
    rw [closed_sound hx _ _ _ hf heq closed_drive, val_drive]
  refine ⟨h1, h2, ?_⟩
  have h3 := closed_sound hx _ _ _ hf heq closed_det
  have e : (E.mul (.z 964) (det3 massCell)).val real m = m 964 * det3 (fun i j => m (massAt i j)) := rfl
  rw [e, h2] at h3
  rw [h3]
  have : (fun i j => m (massAt i j)) = (memLP m).mass := by funext i j; exact h1 i j
  rw [this]

/-- The linear system of the upright bicycle, from the cells. -/
theorem upright_system {m : ℕ → ℝ} (hm : Upright m) (heq : ∀ s ∈ body, m s.1 = s.2.val real m)
    (hdrive : (memLP m).drive ≠ 0) (hdet : det3 (memLP m).mass ≠ 0) :
    let P := memLP m
    let A := fun i j : ℕ => m (5200 + 13 * i + j)
    let B := fun i j : ℕ => m (5400 + 4 * i + j)
    let lhs := fun (i : Fin 3) (X : ℕ → ℝ) => P.mass i 0 * X 9 + P.mass i 1 * X 11 + P.mass i 2 * X 12
    (∀ i, lhs i (fun r => A r 3) = -P.stiff i 0 ∧ lhs i (fun r => A r 6) = -P.stiff i 1 ∧
      lhs i (fun r => A r 8) = -P.stiff i 2) ∧
    (∀ i, lhs i (fun r => A r 9) = -P.damp i 0 ∧ lhs i (fun r => A r 11) = -P.damp i 1 ∧
      lhs i (fun r => A r 12) = -P.damp i 2) ∧
    (∀ i, lhs i (fun r => B r 0) = (if i = 0 then 1 else 0) ∧ lhs i (fun r => B r 2) = (if i = 1 then 1 else 0) ∧
      lhs i (fun r => B r 3) = (if i = 2 then 1 else 0)) ∧
    P.drive * B 10 1 = 1 ∧
    (A 0 10 = -P.rr ∧ A 1 2 = P.v ∧ A 2 6 = P.v * P.kap ∧ A 2 11 = P.mu ∧ A 7 10 = P.rr / P.rf) ∧
    (∀ i j : Fin 13, aPattern i j = false → A i j = 0) ∧
    (∀ (i : Fin 13) (j : Fin 4), bPattern i j = false → B i j = 0) ∧
    (A 3 9 = 1 ∧ A 5 10 = 1 ∧ A 6 11 = 1 ∧ A 8 12 = 1) := by
  intro P A B lhs
  obtain ⟨hM, hDr, hDt⟩ := upright_mass hm heq
  have hD : m 1001 ≠ 0 := by rw [hDt]; exact mul_ne_zero hdrive hdet
  have hf := fits_cells hm (m 1001) hD body (fun _ h => h) inputs assigned body_defined inputs_fin heq (fun _ => rfl)
  have van := fun e (h : vanishes assigned e = true) => vanishes_sound (upright_rels hm hD) _ e hf h
  have hmc : ∀ i j, (massCell i j).val real m = P.mass i j := fun i j => hM i j
  have hdc : (det3 massCell).val real m = det3 P.mass := by
    simp only [det3, val_add, val_sub, val_mul, hmc]
  have hz : (m 964) * det3 P.mass = m 1001 := by rw [hDr, hDt]
  have eqn : ∀ i X rhs, vanishes assigned (eqnOf i X rhs) = true →
      P.mass i 0 * (X 9).val real m + P.mass i 1 * (X 11).val real m + P.mass i 2 * (X 12).val real m =
        -(rhs.val real m) := by
    intro i X rhs h
    have h1 := van _ h
    simp only [eqnOf, val_add, val_mul, hmc, hdc, val_z, hz] at h1
    have h2 : m 1001 * (P.mass i 0 * (X 9).val real m + P.mass i 1 * (X 11).val real m +
        P.mass i 2 * (X 12).val real m + rhs.val real m) = 0 := by rw [← h1]; ring
    rcases mul_eq_zero.mp h2 with h3 | h3
    · exact absurd h3 hD
    · linarith
  refine ⟨fun i => ?_, fun i => ?_, fun i => ?_, ?_, ?_, fun i j h => van _ (zeros_A i j h),
    fun i j h => van _ (zeros_B i j h), ?_⟩
  · obtain ⟨h1, h2, h3⟩ := rows_stiff i
    rw [← val_stiff, ← val_stiff, ← val_stiff]
    exact ⟨eqn _ _ _ h1, eqn _ _ _ h2, eqn _ _ _ h3⟩
  · obtain ⟨h1, h2, h3⟩ := rows_damp i
    rw [← val_damp, ← val_damp, ← val_damp]
    exact ⟨eqn _ _ _ h1, eqn _ _ _ h2, eqn _ _ _ h3⟩
  · obtain ⟨h1, h2, h3⟩ := rows_input i
    have hv : ∀ c : Prop, ∀ [Decidable c], -((if c then (-1 : E) else 0).val real m) = if c then 1 else 0 := by
      intro c _
      split_ifs
      · rw [val_neg, val_one, neg_neg]
      · rw [val_zero, neg_zero]
    rw [← hv, ← hv, ← hv]
    exact ⟨eqn _ _ _ h1, eqn _ _ _ h2, eqn _ _ _ h3⟩
  · have h1 := van _ row_drive
    simp only [val_sub, val_mul, hdc, val_z, bCell, hDt] at h1
    have h2 : det3 P.mass * (P.drive * B 10 1 - 1) = 0 := by
      rw [← h1]; simp only [B]; ring
    rcases mul_eq_zero.mp h2 with h3 | h3
    · exact absurd h3 hdet
    · linarith
  · obtain ⟨h1, h2, h3, h4, h5⟩ := rows_kin
    obtain ⟨e1, e2, e3⟩ := val_kin m
    have h1 := van _ h1
    have h2 := van _ h2
    have h3 := van _ h3
    have h4 := van _ h4
    have h5 := van _ h5
    simp only [val_add, val_sub, val_mul, val_div, e1, e2, e3] at h1 h2 h3 h4 h5
    refine ⟨?_, ?_, ?_, ?_, ?_⟩
    · exact eq_neg_of_add_eq_zero_left h1
    · exact sub_eq_zero.mp h2
    · exact sub_eq_zero.mp h3
    · exact sub_eq_zero.mp h4
    · exact sub_eq_zero.mp h5
  · have : ∀ t ∈ [((3 : ℕ), (9 : ℕ)), (5, 10), (6, 11), (8, 12)], A t.1 t.2 = 1 := by
      intro t ht
      have h := van _ (ones_A t ht)
      rw [val_sub, val_one] at h
      exact sub_eq_zero.mp h
    exact ⟨this (3, 9) (by simp), this (5, 10) (by simp), this (6, 11) (by simp), this (8, 12) (by simp)⟩

end BP.EL
