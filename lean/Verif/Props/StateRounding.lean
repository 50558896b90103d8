import Verif.Lemmas.StateRounding
import Verif.Props.RoundingRel

/-!
# C156: the state matrix with rounding
-/

set_option linter.unusedSimpArgs false

namespace BP

open Real Matrix Spec

theorem Spec.RoundedRel.to {r y : ℝ} (h : RoundedRel r y) : RoundedTo r y := fun _ =>
  h.trans (le_add_of_nonneg_right (by positivity))

theorem Spec.RoundsRel.rounds {O : Machine} (h : RoundsRel O) : Rounds O :=
  ⟨h.neg, fun _ _ => (h.add _ _).to, fun _ _ => (h.sub _ _).to, fun _ _ => (h.mul _ _).to, fun _ _ h' => (h.div _ _ h').to,
   fun _ => (h.sq _).to, fun _ => (h.cos _).to, fun _ => (h.sin _).to⟩

/-- The state matrix that the machine computes from a dictionary, with `benchmark_par_to_canonical` and `ab_matrix`, at speed `v`
and gravity `g`: self-stable for `hi ≤ v ≤ lo'`, not self-stable for `v ≤ lo` and `hi' ≤ v`. -/
def Spec.ComputedStable (O : Machine) (f : Dict ℝ) (g v lo hi lo' hi' : ℝ) : Prop :=
  (hi ≤ v → v ≤ lo' → ∀ l : ℂ, IsEigenvalue (toC (machineA O (machineCanon O f) v g)) l → l.re < 0) ∧
  (v ≤ lo ∨ hi' ≤ v → ∃ l : ℂ, IsEigenvalue (toC (machineA O (machineCanon O f) v g)) l ∧ 0 ≤ l.re)

theorem state_of_cert {d : Dict ℚ} {ranges : Dict Box} (h : certOk d ranges = true) {r g lo hi lo' hi' : ℚ}
    (hr : (certEntries d ranges).conditioned r = true)
    (hs : ((certEntries d ranges).loose r).signs (nearBox g) lo hi lo' hi' = true) {O : Machine} (hO : RoundsRel O)
    (f : Dict ℝ) (hf : Nearest d f) (γ : ℝ) (hγ : |γ - (g : ℝ)| ≤ |(g : ℝ)| / 2 ^ 53) (v : ℝ) :
    ComputedStable O f γ v lo hi lo' hi' :=
  machine_range hO (cert_hold h hO.rounds f hf) hr (nearBox_has g γ hγ) hs v

/-- **C156.** Both functions with rounding: whichever way the results of the operations are rounded, the state matrix that is
computed for the benchmark bicycle is self-stable at every speed from 4.29238254 to 6.02426201 m/s, and at no speed up to
4.29238253 or from 6.02426202 m/s on; and likewise for the two Browser dictionaries. -/
theorem C156_state_matrix (O : Machine) (hO : RoundsRel O) (γ : ℝ) (hγ : |γ - 9.81| ≤ 9.81 / 2 ^ 53) (v : ℝ) :
    (∀ f, Nearest benchmarkBicycle f → ComputedStable O f γ v 4.29238253 4.29238254 6.02426201 6.02426202) ∧
    (∀ f, Nearest browserJason f → ComputedStable O f γ v 4.997809 4.997810 7.110007 7.110008) ∧
    (∀ f, Nearest browserJasonLegs f → ComputedStable O f γ v 4.639101 4.639103 5.880686 5.880687) := by
  have hγ' : |γ - ((9.81 : ℚ) : ℝ)| ≤ |((9.81 : ℚ) : ℝ)| / 2 ^ 53 := by
    have e : ((9.81 : ℚ) : ℝ) = 9.81 := by norm_num
    rw [e, abs_of_pos (by norm_num : (0 : ℝ) < 9.81)]; exact hγ
  refine ⟨fun f hf => ?_, fun f hf => ?_, fun f hf => ?_⟩
  · have h := state_of_cert benchmarkBicycle_cert (r := 3 / 10 ^ 11) (g := 9.81) (lo := 4.29238253) (hi := 4.29238254)
      (lo' := 6.02426201) (hi' := 6.02426202) (by decide +kernel) (by decide +kernel) hO f hf γ hγ' v
    push_cast at h
    exact h
  · have h := state_of_cert browserJason_cert (r := 1 / 10 ^ 10) (g := 9.81) (lo := 4.997809) (hi := 4.997810)
      (lo' := 7.110007) (hi' := 7.110008) (by decide +kernel) (by decide +kernel) hO f hf γ hγ' v
    push_cast at h
    exact h
  · have h := state_of_cert browserJasonLegs_cert (r := 1 / 10 ^ 10) (g := 9.81) (lo := 4.639101) (hi := 4.639103)
      (lo' := 5.880686) (hi' := 5.880687) (by decide +kernel) (by decide +kernel) hO f hf γ hγ' v
    push_cast at h
    exact h

/-- **C156.** For every bicycle, speed and way of rounding: the state matrix that `ab_matrix` computes is exactly the state
matrix of canonical matrices nearby, with the same mass matrix. -/
theorem C156_backward (O : Machine) (hO : RoundsRel O) (c : Canon) (v g : ℝ) (hM : 0 < c.M.det)
    (hκ : |c.M 0 0 * c.M 1 1| + |c.M 0 1 * c.M 1 0| ≤ 2 * c.M.det) :
    ∃ C1' K0' K2' : Mat2 ℝ, machineA O c v g = abA c.M C1' K0' K2' v g ∧
      (∀ X X', (X, X') ∈ [(c.C1, C1'), (c.K0, K0'), (c.K2, K2')] → ∀ m j,
        |X' m j - X m j| ≤ 1 / 2 ^ 46 * ∑ i, ∑ l, |c.M m i| * |c.M⁻¹ i l| * |X l j|) := by
  have e : c.M⁻¹ = invM c.M := by
    refine Matrix.inv_eq_right_inv (invM_mul ℝ c.M hM.ne')
  rw [det_fin_two] at hκ
  obtain ⟨c', e1, e2, -, e4, e5, e6⟩ := state_nearby hO c v g hM hκ
  refine ⟨c'.C1, c'.K0, c'.K2, by rw [e2, e1], fun X X' hX m j => ?_⟩
  have w : wob ^ 17 - 1 ≤ 1 / 2 ^ 46 := by unfold wob; norm_num
  have key : ∀ s : ℝ, 0 ≤ s → (wob ^ 17 - 1) * s ≤ 1 / 2 ^ 46 * s := fun s hs => mul_le_mul_of_nonneg_right w hs
  have pos : ∀ Y : Mat2 ℝ, 0 ≤ ∑ i, ∑ l, |c.M m i| * |invM c.M i l| * |Y l j| := fun Y =>
    Finset.sum_nonneg fun i _ => Finset.sum_nonneg fun l _ => by positivity
  rw [e]
  simp only [List.mem_cons, Prod.mk.injEq, List.not_mem_nil, or_false] at hX
  rcases hX with ⟨rfl, rfl⟩ | ⟨rfl, rfl⟩ | ⟨rfl, rfl⟩
  · exact (e6 m j).trans (key _ (pos _))
  · exact (e4 m j).trans (key _ (pos _))
  · exact (e5 m j).trans (key _ (pos _))

/-- In exact arithmetic the assignments give the state matrix of `ab_matrix`. -/
theorem machineA_exact (c : Canon) (v g : ℝ) : machineA exactMachine c v g = abA c.M c.C1 c.K0 c.K2 v g := by
  have hi : machineInv exactMachine c.M = invM c.M := by
    ext i j
    fin_cases i <;> fin_cases j <;> rfl
  have hd : ∀ (a b : Mat2 ℝ) i j, machineDot exactMachine a b i j = (a * b) i j := fun a b i j => by
    rw [Matrix.mul_apply, Fin.sum_univ_two]; rfl
  have hp : ∀ i j, machineA21 exactMachine c v g i j = a21 c.M c.K0 c.K2 v g i j := fun i j => by
    rw [machineA21, hd, hi, a21, Matrix.neg_apply]; rfl
  have hq : ∀ i j, machineA22 exactMachine c v i j = a22 c.M c.C1 v i j := fun i j => by
    rw [machineA22, hd, hi, a22, Matrix.neg_apply]; rfl
  rw [machineA, abA]
  simp only [hp, hq]

/-- non-vacuity of C156: the benchmark bicycle at 5 m/s, all results too large by one part in 2^52 -/
theorem example_computed_stable (l : ℂ) : IsEigenvalue (toC (machineA (roundingMachine fun r => r + r / 2 ^ 52)
    (machineCanon (roundingMachine fun r => r + r / 2 ^ 52) (realDict benchmarkBicycle)) 5 9.81)) l → l.re < 0 :=
  ((C156_state_matrix _ example_rounds_rel 9.81 (by norm_num) 5).1 _ (nearest_self _)).1 (by norm_num) (by norm_num) l

end BP
