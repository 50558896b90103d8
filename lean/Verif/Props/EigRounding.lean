import Verif.Lemmas.EigRounding
import Verif.Props.StateRounding

/-!
# C157: the eigenvalues with rounding
-/

set_option linter.unusedSimpArgs false

namespace BP

open Real Matrix Spec

/-- A function for the eigenvalues of a real 4×4 matrix that is backward stable with constant `ε`: what it returns are exactly the
eigenvalues of a real matrix whose entries differ by at most `ε` times the largest entry. -/
def Spec.BackwardStable (eig : Matrix (Fin 4) (Fin 4) ℝ → List ℂ) (ε : ℝ) : Prop :=
  ∀ A a, (∀ i j, |A i j| ≤ a) → ∃ F : Matrix (Fin 4) (Fin 4) ℝ, (∀ i j, |F i j| ≤ ε * a) ∧
    ∀ l, l ∈ eig A ↔ IsEigenvalue (toC (A + F)) l

/-- The eigenvalues returned for a dictionary, with `benchmark_par_to_canonical` and `ab_matrix` on the machine and `eig` for
`numpy.linalg.eig`: all with negative real parts for `hi ≤ v ≤ lo'`, not all for `v ≤ lo` and `hi' ≤ v`. -/
def Spec.ReturnedStable (O : Machine) (eig : Matrix (Fin 4) (Fin 4) ℝ → List ℂ) (f : Dict ℝ) (g v lo hi lo' hi' : ℝ) : Prop :=
  (hi ≤ v → v ≤ lo' → ∀ l ∈ eig (machineA O (machineCanon O f) v g), l.re < 0) ∧
  (v ≤ lo ∨ hi' ≤ v → ∃ l ∈ eig (machineA O (machineCanon O f) v g), 0 ≤ l.re)

theorem eig_of_cert {d : Dict ℚ} {ranges : Dict Box} (h : certOk d ranges = true) {r r' x u V g lo hi lo' hi' : ℚ}
    (hr : (certEntries d ranges).conditioned r = true)
    (ho : (certEntries d ranges).eigOk (nearBox g) r r' (x / 2 ^ 47) x u V = true)
    (hs : ((certEntries d ranges).loose r').signs (nearBox g) lo hi lo' hi' = true) {O : Machine} (hO : RoundsRel O)
    {eig : Matrix (Fin 4) (Fin 4) ℝ → List ℂ} (hE : BackwardStable eig (1 / 2 ^ 47))
    (f : Dict ℝ) (hf : Nearest d f) (γ : ℝ) (hγ : |γ - (g : ℝ)| ≤ |(g : ℝ)| / 2 ^ 53) (v : ℝ) (hv : (u : ℝ) ≤ v) (hV : v ≤ V) :
    ReturnedStable O eig f γ v lo hi lo' hi' := by
  have H := cert_hold h hO.rounds f hf
  obtain ⟨hx, key⟩ := eig_range hO H hr (nearBox_has g γ hγ) ho hs v hv hV
  obtain ⟨F, hF, he⟩ := hE _ _ hx
  have k := key F fun i j => by
    refine (hF i j).trans (le_of_eq ?_)
    push_cast
    ring
  refine ⟨fun a b l hl => k.1 a b l ((he l).1 hl), fun a => ?_⟩
  obtain ⟨l, hl, h0⟩ := k.2 a
  exact ⟨l, (he l).2 hl, h0⟩

/-- **C157.** The whole computation with rounding, the eigenvalues by any backward stable method: for speeds from 2 to 10 m/s, all
eigenvalues returned for the benchmark bicycle have negative real parts from 4.296 to 6.019 m/s, and one of them has not up to
4.289 and from 6.029 m/s on; and likewise for the two Browser dictionaries. -/
theorem C157_eigenvalues (O : Machine) (hO : RoundsRel O) (eig : Matrix (Fin 4) (Fin 4) ℝ → List ℂ)
    (hE : BackwardStable eig (1 / 2 ^ 47)) (γ : ℝ) (hγ : |γ - 9.81| ≤ 9.81 / 2 ^ 53) (v : ℝ) (hv : 2 ≤ v) (hV : v ≤ 10) :
    (∀ f, Nearest benchmarkBicycle f → ReturnedStable O eig f γ v 4.289 4.296 6.019 6.029) ∧
    (∀ f, Nearest browserJason f → ReturnedStable O eig f γ v 4.995 5.0 7.108 7.112) ∧
    (∀ f, Nearest browserJasonLegs f → ReturnedStable O eig f γ v 4.638 4.640 5.880 5.882) := by
  have hγ' : |γ - ((9.81 : ℚ) : ℝ)| ≤ |((9.81 : ℚ) : ℝ)| / 2 ^ 53 := by
    have e : ((9.81 : ℚ) : ℝ) = 9.81 := by norm_num
    rw [e, abs_of_pos (by norm_num : (0 : ℝ) < 9.81)]; exact hγ
  have hv' : ((2 : ℚ) : ℝ) ≤ v := by exact_mod_cast hv
  have hV' : v ≤ ((10 : ℚ) : ℝ) := by exact_mod_cast hV
  refine ⟨fun f hf => ?_, fun f hf => ?_, fun f hf => ?_⟩
  · have h := eig_of_cert benchmarkBicycle_cert (r := 3 / 10 ^ 11) (r' := 7 / 10 ^ 5) (x := 2500) (u := 2) (V := 10) (g := 9.81)
      (lo := 4.289) (hi := 4.296) (lo' := 6.019) (hi' := 6.029) (by decide +kernel) (by decide +kernel) (by decide +kernel)
      hO hE f hf γ hγ' v hv' hV'
    push_cast at h
    exact h
  · have h := eig_of_cert browserJason_cert (r := 1 / 10 ^ 10) (r' := 3 / 10 ^ 5) (x := 1400) (u := 2) (V := 10) (g := 9.81)
      (lo := 4.995) (hi := 5.0) (lo' := 7.108) (hi' := 7.112) (by decide +kernel) (by decide +kernel) (by decide +kernel)
      hO hE f hf γ hγ' v hv' hV'
    push_cast at h
    exact h
  · have h := eig_of_cert browserJasonLegs_cert (r := 1 / 10 ^ 10) (r' := 1 / 10 ^ 5) (x := 1000) (u := 2) (V := 10) (g := 9.81)
      (lo := 4.638) (hi := 4.640) (lo' := 5.880) (hi' := 5.882) (by decide +kernel) (by decide +kernel) (by decide +kernel)
      hO hE f hf γ hγ' v hv' hV'
    push_cast at h
    exact h

/-- The exact eigenvalues, as a function of the matrix. -/
noncomputable def exactEig (A : Matrix (Fin 4) (Fin 4) ℝ) : List ℂ := (toC A).charpoly.roots.toList

theorem mem_exactEig (A : Matrix (Fin 4) (Fin 4) ℝ) (l : ℂ) : l ∈ exactEig A ↔ IsEigenvalue (toC A) l := by
  rw [exactEig, Multiset.mem_toList, Polynomial.mem_roots (Matrix.charpoly_monic _).ne_zero, Polynomial.IsRoot,
    Matrix.eval_charpoly, isEigenvalue_iff_det]
  have : Matrix.scalar (Fin 4) l - toC A = l • (1 : Matrix (Fin 4) (Fin 4) ℂ) - toC A := by
    ext i j
    simp [Matrix.scalar_apply, Matrix.one_apply, Matrix.diagonal_apply]
  rw [this]

/-- non-vacuity of C157: a method that is not exact (the eigenvalues of the matrix with its entries too large by one part in 2^50)
is backward stable, and for the benchmark bicycle at 5 m/s it returns eigenvalues, all with negative real parts -/
theorem example_backward_stable : BackwardStable (fun A => exactEig (A + (1 / 2 ^ 50 : ℝ) • A)) (1 / 2 ^ 47) := by
  intro A a h
  refine ⟨(1 / 2 ^ 50 : ℝ) • A, fun i j => ?_, fun l => mem_exactEig _ l⟩
  rw [Matrix.smul_apply, smul_eq_mul, abs_mul, abs_of_pos (by positivity)]
  exact mul_le_mul (by norm_num) (h i j) (abs_nonneg _) (by norm_num)

theorem example_returned (l : ℂ) (O : Machine) (hO : RoundsRel O) :
    l ∈ exactEig (machineA O (machineCanon O (realDict benchmarkBicycle)) 5 9.81 +
      (1 / 2 ^ 50 : ℝ) • machineA O (machineCanon O (realDict benchmarkBicycle)) 5 9.81) → l.re < 0 :=
  ((C157_eigenvalues O hO _ example_backward_stable 9.81 (by norm_num) 5 (by norm_num) (by norm_num)).1 _
    (nearest_self _)).1 (by norm_num) (by norm_num) l

end BP
