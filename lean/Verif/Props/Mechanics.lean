import Verif.Lemmas.DynamicsFree

/-!
# C135: the rides are the motions that obey the laws of mechanics
-/

set_option linter.unusedSimpArgs false

namespace BP.EL

open BP.Spec Matrix

attribute [local irreducible] rates cellsAt evalLinear

variable {lam : ℝ} {junk : ℕ → ℝ} {f : String → ℝ} {r : ℝ → (Fin 13 → ℝ) → Fin 4 → ℝ}

/-- The wheels roll when the rates are those of the model. -/
theorem rates_roll {T : Fin 4 → ℝ} {x : ℝ → Fin 13 → ℝ} {t : ℝ}
    (hdef : ∀ s ∈ body, s.2.Safe (cellsAt lam junk (slotVector f) (x t) T)) (hrf : 0 < f "rf")
    (hx : HasDerivAt x (rates lam junk (slotVector f) (x t) T) t) : RollsAt f x t := by
  obtain ⟨h35, h494, -⟩ := (C126_defined lam junk (slotVector f) (x t) T).mp hdef
  obtain ⟨r1, r2, -⟩ := roll_solved (cellsAt_equation lam junk (slotVector f) (x t) T) h494
  obtain ⟨a0, a1, a2, a3, a4, a5, -⟩ := rate_cells lam junk (slotVector f) (x t) T
  obtain ⟨⟨b2, -⟩, -, -, -, -, c35⟩ := arg_cells lam junk (slotVector f) (x t) T
  have V := rollVals (cellsAt_equation lam junk (slotVector f) (x t) T)
  have v1 := V.v1
  have v2 := V.v2
  rw [b2] at v1 v2
  rw [v1, v2, c35, ← a0, ← a1, ← a4, ← a5] at r1
  rw [v1, v2, ← a0, ← a1] at r2
  exact ⟨fun φ hφ => rear_rest hx r1 r2 φ hφ,
    fun φ hφ => front_rolls_of lam junk (slotVector f) x T t hx h35 h494 hrf φ hφ⟩

/-- The speeds of a motion that rolls are those of the model. -/
theorem rolling_rates {T : Fin 4 → ℝ} {x : ℝ → Fin 13 → ℝ} {t : ℝ}
    (hdef : ∀ s ∈ body, s.2.Safe (cellsAt lam junk (slotVector f) (x t) T)) (hrf : 0 < f "rf") {x' : Fin 13 → ℝ}
    (hx : HasDerivAt x x' t) (roll : RollsAt f x t) (u4 : x' 3 = x t 9) (u6 : x' 5 = x t 10) (u7 : x' 6 = x t 11)
    (u9 : x' 8 = x t 12) : ∀ i : Fin 13, i.1 < 9 → x' i = rates lam junk (slotVector f) (x t) T i := by
  have D := rolls_dependent lam junk f (x t) T hdef hrf hx (fun _ _ => rfl) roll
  have R := rate_dependent hdef
  obtain ⟨v, hv⟩ : ∃ v, v = rates lam junk (slotVector f) (x t) T := ⟨_, rfl⟩
  obtain ⟨g3, g5, g6, g8⟩ := rate_speeds lam junk (x t) T (slotVector f)
  rw [← hv] at R g3 g5 g6 g8 ⊢
  obtain ⟨M, hM⟩ : ∃ M, M = cellsAt lam junk (slotVector f) (x t) T := ⟨_, rfl⟩
  rw [← hM] at D R
  clear hM hv hdef
  have e3 := u4.trans g3.symm
  have e5 := u6.trans g5.symm
  have e6 := u7.trans g6.symm
  have e8 := u9.trans g8.symm
  obtain ⟨n1, n2, n3, n5, n8⟩ := D
  obtain ⟨k1, k2, k3, k5, k8⟩ := R
  simp only [nineOf] at n1 n2 n3 n5 n8 k1 k2 k3 k5 k8
  rw [e3, e5, e6] at n1 n2 n3 n8
  rw [e3, e6] at n5
  intro i hi
  have cases : i = 0 ∨ i = 1 ∨ i = 2 ∨ i = 3 ∨ i = 4 ∨ i = 5 ∨ i = 6 ∨ i = 7 ∨ i = 8 := by omega
  rcases cases with h | h | h | h | h | h | h | h | h <;> rw [h]
  · exact n1.trans k1.symm
  · exact n2.trans k2.symm
  · exact n3.trans k3.symm
  · exact e3
  · exact n5.trans k5.symm
  · exact e5
  · exact e6
  · exact n8.trans k8.symm
  · exact e8

/-- **C135.** The equations of motion of the model are the laws of mechanics for the bicycle: among the motions at whose
places the equations are defined, the rides are those whose wheels roll, whose speeds are the rates of the angles, and
that obey d'Alembert's principle at every time. -/
theorem C135_mechanics (hr : SmoothLaw r) {a b : ℝ} {x : ℝ → Fin 13 → ℝ}
    (hdef : ∀ t ∈ Set.Ioo a b, ∀ s ∈ body, s.2.Safe (cellsAt lam junk (slotVector f) (x t) (r t (x t))))
    (hrf : 0 < f "rf") {ι : Spec.Part → Type} [∀ p, Fintype (ι p)] (m : ∀ p, ι p → ℝ)
    (c : ∀ p, ι p → Fin 3 → ℝ) (made : ∀ p, MadeOf (m p) (c p) (p.weighs f)) :
    RidesOn lam junk (slotVector f) r a b x ↔ ∀ t ∈ Set.Ioo a b, DifferentiableAt ℝ x t ∧ RollsAt f x t ∧
      (deriv x t 3 = x t 9 ∧ deriv x t 5 = x t 10 ∧ deriv x t 6 = x t 11 ∧ deriv x t 8 = x t 12) ∧
      Obeys f lam m c x (r t (x t)) t := by
  constructor
  · intro hx t ht
    have d := (hx t ht).2
    refine ⟨d.differentiableAt, rates_roll (hx t ht).1 hrf d, ?_, ?_⟩
    · rw [d.deriv]
      exact rate_speeds lam junk (x t) (r t (x t)) (slotVector f)
    · intro y hy same roll
      exact (C133_alembert hr hx ht hrf m c made y hy same roll).2
  · intro h t ht
    refine ⟨hdef t ht, ?_⟩
    have hd : ∀ t ∈ Set.Ioo a b, HasDerivAt x (deriv x t) t := fun t ht => (h t ht).1.hasDerivAt
    have hrate : ∀ t ∈ Set.Ioo a b, ∀ i : Fin 13, i.1 < 9 →
        deriv x t i = rates lam junk (slotVector f) (x t) (r t (x t)) i := by
      intro t ht
      obtain ⟨-, roll, ⟨u4, u6, u7, u9⟩, -⟩ := h t ht
      exact rolling_rates (hdef t ht) hrf (hd t ht) roll u4 u6 u7 u9
    have heq := cellsAt_equation lam junk (slotVector f) (x t) (r t (x t))
    obtain ⟨h35, h494, h1001⟩ := (C126_defined lam junk (slotVector f) (x t) (r t (x t))).mp (hdef t ht)
    obtain ⟨M, hM⟩ : ∃ M, M = cellsAt lam junk (slotVector f) (x t) (r t (x t)) := ⟨_, rfl⟩
    have key : ∀ w4 w6 w7 w9 : ℝ,
        w4 * (M 949 * deriv x t 9 + M 950 * deriv x t 10 + M 951 * deriv x t 11 + M 945 * deriv x t 12 + M 952 - M 753) +
        w6 * (M 963 * deriv x t 9 + M 964 * deriv x t 10 + M 965 * deriv x t 11 + M 960 * deriv x t 12 + M 966 - M 754) +
        w7 * (M 977 * deriv x t 9 + M 978 * deriv x t 10 + M 979 * deriv x t 11 + M 973 * deriv x t 12 + M 980 - M 755) +
        w9 * (M 981 * deriv x t 9 + M 982 * deriv x t 10 + M 983 * deriv x t 11 + M 905 * deriv x t 12 + M 984 - M 756)
          = 0 := by
      intro w4 w6 w7 w9
      obtain ⟨y, y', dy, same, roll, e4, e6, e7, e9⟩ :=
        motion_exists lam junk f (x t) (r t (x t)) t h35 h494 hrf w4 w6 w7 w9
      have pw := (motion_power hr hdef hd hrate ht m c made (fun i _ => hasDerivAt_pi.mp dy i) same
        (rolls_dependent lam junk f (x t) (r t (x t)) (hdef t ht) hrf dy same roll)).2
      have ob := (h t ht).2.2.2 y dy.differentiableAt same roll
      rw [dy.deriv] at ob
      have := pw.symm.trans ob
      rw [add_eq_left, e4, e6, e7, e9, ← hM] at this
      exact this
    rw [← hM] at heq h1001
    obtain ⟨t4, t6, t7, t9⟩ := dyn_cramer heq h1001 (sub_eq_zero.mp (by simpa using key 1 0 0 0))
      (sub_eq_zero.mp (by simpa using key 0 1 0 0)) (sub_eq_zero.mp (by simpa using key 0 0 1 0))
      (sub_eq_zero.mp (by simpa using key 0 0 0 1))
    rw [hM] at t4 t6 t7 t9
    refine (hd t ht).congr_deriv ?_
    funext i
    by_cases hi : i.1 < 9
    · exact hrate t ht i hi
    · have cases : i = 9 ∨ i = 10 ∨ i = 11 ∨ i = 12 := by omega
      rcases cases with k | k | k | k <;> rw [k]
      · exact t4.trans (rates_eq _ _ _ _ _ 9).symm
      · exact t6.trans (rates_eq _ _ _ _ _ 10).symm
      · exact t7.trans (rates_eq _ _ _ _ _ 11).symm
      · exact t9.trans (rates_eq _ _ _ _ _ 12).symm

/-- The hypotheses can be met by a ride, with a driving torque that grows, of a bicycle whose bodies are made of
particles. -/
example (Ω κ : ℝ) : ∃ (f : String → ℝ) (a b : ℝ) (x : ℝ → Fin 13 → ℝ) (m : Spec.Part → Fin 6 → ℝ)
    (c : Spec.Part → Fin 6 → Fin 3 → ℝ), 0 ∈ Set.Ioo a b ∧ x 0 10 = Ω ∧
    (∀ t ∈ Set.Ioo a b, ∀ s ∈ body, s.2.Safe (cellsAt 0 0 (slotVector f) (x t) ![0, t, 0, 0])) ∧
    SmoothLaw (fun t _ => (![0, t, 0, 0] : Fin 4 → ℝ)) ∧ 0 < f "rf" ∧ (∀ p, MadeOf (m p) (c p) (p.weighs f)) ∧
    f "c9" = κ ∧ ∀ t ∈ Set.Ioo a b, RollsAt f x t ∧ Obeys f 0 m c x ![0, t, 0, 0] t := by
  obtain ⟨f, w, c, h, h1, h2, h3, -, h5⟩ := example_leanBodies κ
  choose m c hm using h5
  have hr : SmoothLaw fun t _ => (![0, t, 0, 0] : Fin 4 → ℝ) := by
    refine contDiff_pi.mpr fun i => ?_
    fin_cases i
    · exact contDiff_const
    · exact contDiff_fst
    · exact contDiff_const
    · exact contDiff_const
  have z : (![0, (0 : ℝ), 0, 0] : Fin 4 → ℝ) = 0 := by ext i; fin_cases i <;> rfl
  obtain ⟨a, b, h0, x, hx0, hx⟩ := C132_ride_exists (lam := 0) (junk := 0) (p := slotVector f) hr 0 (ahead 0 Ω)
    (by rw [z]; exact (C127_steady_riding _ 0 f 0 w _ Ω h).2)
  have all := (C135_mechanics hr (fun t ht => (hx t ht).1) h2 m c fun p => (hm p).2).mp hx
  exact ⟨f, a, b, x, m, c, h0, by rw [hx0]; rfl, fun t ht => (hx t ht).1, hr, h2, fun p => (hm p).2, h1,
    fun t ht => ⟨(all t ht).2.1, (all t ht).2.2.2⟩⟩

end BP.EL
