import Verif.Lemmas.Distinct
import Verif.Props.Rounding

/-!
# C162: the eigenvalues of the bicycles that come with the package are followed

The hypothesis of C161, that the state matrix has four different eigenvalues at every speed of the sweep, holds for the
benchmark bicycle of the repository, with rounded arithmetic, at all speeds except those of an interval of 1 cm/s,
in which two eigenvalues meet.
-/

set_option linter.unusedSimpArgs false

namespace BP

open Spec StableCheck Set

namespace Spec

/-- The state matrix that `ab_matrix` forms at speed `v` from the canonical matrices that `benchmark_par_to_canonical`
computes, with the rounding of `O`, from the parameters `f`. -/
noncomputable def computedState (O : Machine) (f : Dict ℝ) (γ v : ℝ) : Matrix (Fin 4) (Fin 4) ℂ :=
  toC (abA (machineCanon O f).M (machineCanon O f).C1 (machineCanon O f).K0 (machineCanon O f).K2 v γ)

/-- Four different eigenvalues at every speed, forwards and backwards, except between `lo` and `hi`; somewhere between them
the matrix has fewer. -/
def FourModesOutside (lo hi : ℝ) (A : ℝ → Matrix (Fin 4) (Fin 4) ℂ) : Prop :=
  (∀ v, |v| ≤ lo ∨ hi ≤ |v| → ∃ L, AllEigenvalues (A v) L) ∧ ∃ v, lo < v ∧ v < hi ∧ ¬∃ L, AllEigenvalues (A v) L

end Spec

theorem disc_continuous (c : Canon) (g : ℝ) : Continuous fun v : ℝ => discOf c g (v ^ 2) := by
  have : (fun v : ℝ => discOf c g (v ^ 2)) = fun v : ℝ => disc4 c.M.det (v * mixed c.M c.C1)
      (g * mixed c.M c.K0 + (c.C1.det + mixed c.M c.K2) * v ^ 2) (v * (g * mixed c.C1 c.K0 + mixed c.C1 c.K2 * v ^ 2))
      (g ^ 2 * c.K0.det + g * mixed c.K0 c.K2 * v ^ 2) := by
    funext v
    rw [discOf, ← disc_expr]
  rw [this]
  unfold disc4
  fun_prop

theorem modes_of_signs {E : Entries} {c : Canon} (H : E.Hold c) {g lo hi : ℝ} (h0 : 0 < lo) (lh : lo < hi) (hM : c.M.det ≠ 0)
    (hpos : ∀ w, 0 ≤ w → w ≤ lo ^ 2 → 0 < discOf c g w) (hneg : ∀ w, hi ^ 2 ≤ w → discOf c g w < 0) :
    FourModesOutside lo hi fun v => toC (abA c.M c.C1 c.K0 c.K2 v g) := by
  have hK : c.K2.det = 0 := by rw [Matrix.det_fin_two, H.z3, H.z4]; ring
  have pos : ∀ v : ℝ, |v| ≤ lo → 0 < discOf c g (v ^ 2) := fun v hv =>
    hpos _ (sq_nonneg v) (by rw [← sq_abs]; nlinarith [abs_nonneg v])
  have neg : ∀ v : ℝ, hi ≤ |v| → discOf c g (v ^ 2) < 0 := fun v hv => hneg _ (by rw [← sq_abs v]; nlinarith)
  refine ⟨fun v hv => all_of_ne hK hM ?_, ?_⟩
  · rcases hv with hv | hv
    · exact (pos v hv).ne'
    · exact (neg v hv).ne
  · have p := pos lo (abs_of_pos h0).le
    have n := neg hi (le_abs_self _)
    obtain ⟨v, hv, hz⟩ := intermediate_value_Icc' lh.le (disc_continuous c g).continuousOn ⟨n.le, p.le⟩
    refine ⟨v, lt_of_le_of_ne hv.1 ?_, lt_of_le_of_ne hv.2 ?_, not_all_of_eq hK hM hz⟩
    · rintro rfl
      exact p.ne' hz
    · rintro rfl
      exact n.ne hz

theorem modes_1 : discAbove (certEntries benchmarkBicycle benchmarkBicycleRanges) (nearBox 9.81) 0 0.25 = true := by decide +kernel
theorem modes_2 : discAbove (certEntries benchmarkBicycle benchmarkBicycleRanges) (nearBox 9.81) 0.25 0.2124 = true := by
  decide +kernel
theorem modes_3 : discPiece (certEntries benchmarkBicycle benchmarkBicycleRanges) (nearBox 9.81) 0.4761 1.9 = true := by
  decide +kernel
theorem modes_4 : discPiece (certEntries benchmarkBicycle benchmarkBicycleRanges) (nearBox 9.81) 2.3 9.9 = true := by decide +kernel
theorem modes_5 : discPiece (certEntries benchmarkBicycle benchmarkBicycleRanges) (nearBox 9.81) 12.2 18.8 = true := by decide +kernel
theorem modes_6 : discTail (certEntries benchmarkBicycle benchmarkBicycleRanges) (nearBox 9.81) 31 = true := by decide +kernel

/-- **C162.** With every rounding of the arithmetic, the benchmark bicycle has four different eigenvalues at every speed,
except between 0.68 and 0.69 m/s, where two of them meet. -/
theorem C162_four_modes (O : Machine) (hO : Rounds O) (γ : ℝ) (hγ : |γ - 9.81| ≤ 9.81 / 2 ^ 53) (f : Dict ℝ)
    (hf : Nearest benchmarkBicycle f) : FourModesOutside 0.68 0.69 (computedState O f γ) := by
  have hγ' : |γ - ((9.81 : ℚ) : ℝ)| ≤ |((9.81 : ℚ) : ℝ)| / 2 ^ 53 := by
    have e : ((9.81 : ℚ) : ℝ) = 9.81 := by norm_num
    rw [e, abs_of_pos (by norm_num : (0 : ℝ) < 9.81)]; exact hγ
  have H := cert_hold benchmarkBicycle_cert hO f hf
  have hG := nearBox_has 9.81 γ hγ'
  have hM : (machineCanon O f).M.det ≠ 0 := by
    have : (mD (certEntries benchmarkBicycle benchmarkBicycleRanges)).Has (machineCanon O f).M.det := by
      rw [Matrix.det_fin_two, H.z1]; exact (H.M00.mul H.M11).sub (H.M01.mul H.M01)
    exact (this.pos (of_decide_eq_true (by decide +kernel))).ne'
  refine modes_of_signs H (by norm_num) (by norm_num) hM (fun w h0 h1 => ?_) fun w h => ?_
  · rcases le_total w 0.25 with h2 | h2
    · exact piece_positive H hG modes_1 (by push_cast; exact h0) (by push_cast; linarith)
    · exact piece_positive H hG modes_2 (by push_cast; exact h2) (by push_cast; norm_num at h1 ⊢; linarith)
  · have h' : (0.4761 : ℝ) ≤ w := by norm_num at h ⊢; exact h
    rcases le_total w 2.3 with h2 | h2
    · exact piece_negative H hG modes_3 (by push_cast; exact h') (by push_cast; linarith)
    rcases le_total w 12.2 with h3 | h3
    · exact piece_negative H hG modes_4 (by push_cast; exact h2) (by push_cast; linarith)
    rcases le_total w 31 with h4 | h4
    · exact piece_negative H hG modes_5 (by push_cast; exact h3) (by push_cast; linarith)
    · exact tail_negative H hG modes_6 (by push_cast; exact h4)

/-- **C162.** So `sort_eigenmodes` loses and doubles no eigenvalue of the benchmark bicycle in a sweep over speeds that starts
above the meeting (or stays below it), up to any top speed, when the steps are small enough. -/
theorem C162_sorted {V : Type} [Inhabited V] (O : Machine) (hO : Rounds O) (γ : ℝ) (hγ : |γ - 9.81| ≤ 9.81 / 2 ^ 53) (f : Dict ℝ)
    (hf : Nearest benchmarkBicycle f) (a b : ℝ) (hab : (-0.68 ≤ a ∧ b ≤ 0.68) ∨ 0.69 ≤ a) :
    ∃ δ > 0, ∀ (speeds : List ℝ) (rows : List (EigRow V)), (∀ v ∈ speeds, v ∈ Icc a b) →
      List.IsChain (fun s t => |t - s| < δ) speeds →
      List.Forall₂ (fun v r => EigenRow (computedState O f γ v) r) speeds rows →
      List.Forall₂ (fun r r' => List.Perm r.evals r'.evals) rows (sortEigenmodes rows) := by
  refine C161_bicycle (machineCanon O f) γ a b fun v hv => (C162_four_modes O hO γ hγ f hf).1 v ?_
  rcases hab with ⟨h1, h2⟩ | h
  · exact .inl (abs_le.2 ⟨by linarith [hv.1], by linarith [hv.2]⟩)
  · exact .inr ((h.trans hv.1).trans (le_abs_self v))

/-- non-vacuity of C162: rounded arithmetic, the decimals themselves, speeds from 1 to 10 m/s -/
theorem example_sweep_modes (v : ℝ) (hv : v ∈ Icc (1 : ℝ) 10) :
    ∃ L, AllEigenvalues (computedState (roundingMachine fun r => r + r / 2 ^ 52) (realDict benchmarkBicycle) 9.81 v) L :=
  (C162_four_modes _ example_rounding 9.81 (by norm_num) _ (nearest_self _)).1 v
    (.inr ((by linarith [hv.1] : (0.69 : ℝ) ≤ v).trans (le_abs_self v)))

end BP
