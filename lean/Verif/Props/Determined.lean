import Verif.Props.RideSymmetry
import Mathlib.Analysis.ODE.ExistUnique
import Mathlib.Analysis.SpecialFunctions.Sqrt
import Mathlib.Analysis.SpecialFunctions.Trigonometric.Deriv

/-!
# C132: the state determines the ride
-/

set_option linter.unusedSimpArgs false

namespace BP.EL

open BP.Spec

/-! ## The equations of motion are smooth -/

/-- An expression whose cells are smooth. -/
theorem val_smooth {F : Type} [NormedAddCommGroup F] [NormedSpace ℝ F] {c : F → ℕ → ℝ} {x : F} (d : ℕ)
    (hd : ∀ l, Nat.testBit d l = true → ContDiffAt ℝ 1 (fun y => c y l) x) (e : E) (hr : e.reads d = true)
    (hs : e.Safe (c x)) : ContDiffAt ℝ 1 (fun y => e.val real (c y)) x := by
  induction e with
  | z l => exact hd l hr
  | n k => exact contDiffAt_const
  | qt k => exact contDiffAt_const
  | neg a iha => exact (iha hr hs).neg
  | add a b iha ihb =>
    simp only [E.reads, Bool.and_eq_true] at hr
    exact (iha hr.1 hs.1).add (ihb hr.2 hs.2)
  | sub a b iha ihb =>
    simp only [E.reads, Bool.and_eq_true] at hr
    exact (iha hr.1 hs.1).sub (ihb hr.2 hs.2)
  | mul a b iha ihb =>
    simp only [E.reads, Bool.and_eq_true] at hr
    exact (iha hr.1 hs.1).mul (ihb hr.2 hs.2)
  | div a b iha ihb =>
    simp only [E.reads, Bool.and_eq_true] at hr
    exact (iha hr.1 hs.1.1).div (ihb hr.2 hs.1.2) hs.2
  | pow a k iha => exact (iha hr hs).pow k
  | hpow a k iha => exact ((iha hr hs.1).sqrt hs.2.ne').pow k
  | sin a iha => exact (iha hr hs).sin
  | cos a iha => exact (iha hr hs).cos

/-- The cells, for states and torques that depend on something. -/
theorem cells_smooth {F : Type} [NormedAddCommGroup F] [NormedSpace ℝ F] (lam : ℝ) (junk : ℕ → ℝ) (p : Fin 36 → ℝ)
    (x : F → Fin 13 → ℝ) (r : F → Fin 4 → ℝ) (y : F) (hx : ContDiffAt ℝ 1 x y) (hr : ContDiffAt ℝ 1 r y)
    (hdef : ∀ s ∈ body, s.2.Safe (cellsAt lam junk p (x y) (r y))) :
    ∀ l, Nat.testBit assigned l = true → ContDiffAt ℝ 1 (fun y => cellsAt lam junk p (x y) (r y) l) y := by
  refine run_pred (fun l => ContDiffAt ℝ 1 (fun y => cellsAt lam junk p (x y) (r y) l) y) body inputs assigned
    body_defined ?_ ?_
  · intro s hs d hd ih
    rw [show (fun y => cellsAt lam junk p (x y) (r y) s.1) = fun y => s.2.val real (cellsAt lam junk p (x y) (r y)) from
      funext fun y => cellsAt_equation lam junk p (x y) (r y) s hs]
    exact val_smooth d ih s.2 hd (hdef s hs)
  · intro l hl
    rw [show (fun y => cellsAt lam junk p (x y) (r y) l) = fun y =>
      start (fun _ _ _ _ _ _ _ => lam) junk (coords (x y)) (speeds (x y)) (r y) p l from
      funext fun y => cellsAt_keep lam junk p (x y) (r y) l hl]
    refine inputs_cases (P := fun l => ContDiffAt ℝ 1 (fun y =>
      start (fun _ _ _ _ _ _ _ => lam) junk (coords (x y)) (speeds (x y)) (r y) p l) y) ?_ ?_ ?_ ?_ ?_ l hl
    · intro i _; simp only [start_q]; exact contDiffAt_pi.mp hx _
    · intro i; simp only [start_u]; exact contDiffAt_pi.mp hx _
    · intro i; simp only [start_r]; exact contDiffAt_pi.mp hr i
    · intro i; simp only [start_p]; exact contDiffAt_const
    · simp only [start_lam]; exact contDiffAt_const

theorem rates_assigned : ∀ i : Fin 13, Nat.testBit assigned (rateCell i) = true := fun i => (sign_tables_rates i).1

theorem divisors_assigned : Nat.testBit assigned 35 = true ∧ Nat.testBit assigned 494 = true ∧
    Nat.testBit assigned 1001 = true := by decide +kernel

/-- Laws for the torques: they depend on the time and on the state, smoothly. -/
def SmoothLaw (r : ℝ → (Fin 13 → ℝ) → Fin 4 → ℝ) : Prop :=
  ContDiff ℝ 1 fun z : ℝ × (Fin 13 → ℝ) => r z.1 z.2

/-- A ride during an interval, under such torques, on which all divisions are possible. -/
def RidesOn (lam : ℝ) (junk : ℕ → ℝ) (p : Fin 36 → ℝ) (r : ℝ → (Fin 13 → ℝ) → Fin 4 → ℝ) (a b : ℝ)
    (x : ℝ → Fin 13 → ℝ) : Prop :=
  ∀ t ∈ Set.Ioo a b, (∀ s ∈ body, s.2.Safe (cellsAt lam junk p (x t) (r t (x t)))) ∧
    HasDerivAt x (rates lam junk p (x t) (r t (x t))) t

/-- The equations of motion with the time as a state. -/
noncomputable def flow (lam : ℝ) (junk : ℕ → ℝ) (p : Fin 36 → ℝ) (r : ℝ → (Fin 13 → ℝ) → Fin 4 → ℝ)
    (z : ℝ × (Fin 13 → ℝ)) : ℝ × (Fin 13 → ℝ) := (1, rates lam junk p z.2 (r z.1 z.2))

variable {lam : ℝ} {junk : ℕ → ℝ} {p : Fin 36 → ℝ} {r : ℝ → (Fin 13 → ℝ) → Fin 4 → ℝ}

theorem flow_smooth (hr : SmoothLaw r) (z : ℝ × (Fin 13 → ℝ))
    (hdef : ∀ s ∈ body, s.2.Safe (cellsAt lam junk p z.2 (r z.1 z.2))) : ContDiffAt ℝ 1 (flow lam junk p r) z := by
  refine contDiffAt_const.prodMk ?_
  rw [contDiffAt_pi]
  intro i
  simp only [rates_eq]
  exact cells_smooth lam junk p (fun z : ℝ × (Fin 13 → ℝ) => z.2) (fun z => r z.1 z.2) z contDiffAt_snd hr.contDiffAt
    hdef _ (rates_assigned i)

/-- The divisions stay possible for a while. -/
theorem safe_nhds (hr : SmoothLaw r) (z : ℝ × (Fin 13 → ℝ))
    (hdef : ∀ s ∈ body, s.2.Safe (cellsAt lam junk p z.2 (r z.1 z.2))) :
    ∀ᶠ w in nhds z, ∀ s ∈ body, s.2.Safe (cellsAt lam junk p w.2 (r w.1 w.2)) := by
  have h := cells_smooth lam junk p (fun z : ℝ × (Fin 13 → ℝ) => z.2) (fun z => r z.1 z.2) z contDiffAt_snd
    hr.contDiffAt hdef
  obtain ⟨a1, a2, a3⟩ := divisors_assigned
  obtain ⟨s1, s2, s3⟩ := (C126_defined lam junk p z.2 (r z.1 z.2)).mp hdef
  filter_upwards [(h _ a1).continuousAt.eventually (lt_mem_nhds s1), (h _ a2).continuousAt.eventually_ne s2,
    (h _ a3).continuousAt.eventually_ne s3] with w h1 h2 h3
  exact (C126_defined lam junk p w.2 (r w.1 w.2)).mpr ⟨h1, h2, h3⟩

attribute [local irreducible] rates cellsAt evalLinear

/-- **C132.** From every state in which the divisions are possible there is a ride. -/
theorem C132_ride_exists (hr : SmoothLaw r) (t₀ : ℝ) (x₀ : Fin 13 → ℝ)
    (hdef : ∀ s ∈ body, s.2.Safe (cellsAt lam junk p x₀ (r t₀ x₀))) :
    ∃ a b, t₀ ∈ Set.Ioo a b ∧ ∃ x : ℝ → Fin 13 → ℝ, x t₀ = x₀ ∧ RidesOn lam junk p r a b x := by
  obtain ⟨z, hz, ε, hε, hd⟩ :=
    (flow_smooth hr (t₀, x₀) hdef).exists_forall_mem_closedBall_exists_eq_forall_mem_Ioo_hasDerivAt₀ t₀
  have h0 : t₀ ∈ Set.Ioo (t₀ - ε) (t₀ + ε) := ⟨by linarith, by linarith⟩
  have ht : ∀ t ∈ Set.Ioo (t₀ - ε) (t₀ + ε), HasDerivAt (fun s => (z s).1) 1 t := fun t ht =>
    ((ContinuousLinearMap.fst ℝ ℝ (Fin 13 → ℝ)).hasFDerivAt).comp_hasDerivAt t (hd t ht)
  have hx : ∀ t ∈ Set.Ioo (t₀ - ε) (t₀ + ε), HasDerivAt (fun s => (z s).2)
      (rates lam junk p (z t).2 (r (z t).1 (z t).2)) t := fun t ht =>
    ((ContinuousLinearMap.snd ℝ ℝ (Fin 13 → ℝ)).hasFDerivAt).comp_hasDerivAt t (hd t ht)
  have clock : ∀ t ∈ Set.Ioo (t₀ - ε) (t₀ + ε), (z t).1 = t := by
    intro t htt
    have e : ∀ s ∈ Set.Ioo (t₀ - ε) (t₀ + ε), HasDerivAt (fun s => (z s).1 - s) 0 s := fun s hs =>
      ((ht s hs).sub (hasDerivAt_id s)).congr_deriv (by simp)
    have hc := (convex_Ioo (t₀ - ε) (t₀ + ε)).is_const_of_fderivWithin_eq_zero (𝕜 := ℝ) (f := fun s => (z s).1 - s)
      (fun s hs => (e s hs).differentiableAt.differentiableWithinAt)
      (fun s hs => by
        have hu : UniqueDiffWithinAt ℝ (Set.Ioo (t₀ - ε) (t₀ + ε)) s := isOpen_Ioo.uniqueDiffWithinAt hs
        have := ((e s hs).hasFDerivAt.hasFDerivWithinAt (s := Set.Ioo (t₀ - ε) (t₀ + ε))).fderivWithin hu
        rw [this]
        ext
        simp) htt h0
    simp only [hz, sub_self] at hc
    linarith
  have hs : ∀ᶠ t in nhds t₀, ∀ s ∈ body, s.2.Safe (cellsAt lam junk p (z t).2 (r (z t).1 (z t).2)) := by
    have hc : ContinuousAt z t₀ := (hd t₀ h0).continuousAt
    have hn := safe_nhds hr (t₀, x₀) hdef
    rw [← hz] at hn
    exact hc.eventually hn
  obtain ⟨δ, hδ, hball⟩ := Metric.eventually_nhds_iff_ball.mp hs
  refine ⟨t₀ - min ε δ, t₀ + min ε δ, ⟨by linarith [lt_min hε hδ], by linarith [lt_min hε hδ]⟩, fun s => (z s).2,
    by simp [hz], fun t htt => ?_⟩
  have m1 := min_le_left ε δ
  have m2 := min_le_right ε δ
  have ht' : t ∈ Set.Ioo (t₀ - ε) (t₀ + ε) := ⟨by linarith [htt.1], by linarith [htt.2]⟩
  have hb : t ∈ Metric.ball t₀ δ := by
    rw [Real.ball_eq_Ioo]
    exact ⟨by linarith [htt.1], by linarith [htt.2]⟩
  have h1 := hball t hb
  have h2 := hx t ht'
  rw [clock t ht'] at h1 h2
  exact ⟨h1, h2⟩

/-- **C132.** The state at one time determines the ride: two rides under the same torques that agree at one time are
the same. -/
theorem C132_determined (hr : SmoothLaw r) {a b : ℝ} {x y : ℝ → Fin 13 → ℝ} (hx : RidesOn lam junk p r a b x)
    (hy : RidesOn lam junk p r a b y) {t₀ : ℝ} (h₀ : t₀ ∈ Set.Ioo a b) (h : x t₀ = y t₀) :
    ∀ t ∈ Set.Ioo a b, x t = y t := by
  have key : ∀ t ∈ Set.Ioo a b, x t = y t → ∀ᶠ s in nhds t, x s = y s := by
    intro t ht e
    obtain ⟨K, S, hS, hK⟩ := (flow_smooth hr (t, x t) (hx t ht).1).exists_lipschitzOnWith
    have cl : ∀ {w : ℝ → Fin 13 → ℝ}, RidesOn lam junk p r a b w → w t = x t →
        ∀ᶠ s in nhds t, HasDerivAt (fun s => (s, w s)) (flow lam junk p r (s, w s)) s ∧ (s, w s) ∈ S := by
      intro w hw e
      have hc : ContinuousAt (fun s => (s, w s)) t := continuousAt_id.prodMk (hw t ht).2.continuousAt
      have hS' : S ∈ nhds ((fun s => (s, w s)) t) := by simpa only [e] using hS
      filter_upwards [isOpen_Ioo.mem_nhds ht, hc.eventually hS'] with s hs hs'
      exact ⟨(hasDerivAt_id s).prodMk (hw s hs).2, hs'⟩
    have hu := ODE_solution_unique_of_eventually (v := fun _ => flow lam junk p r) (s := fun _ => S) (K := K)
      (t₀ := t) (f := fun s => (s, x s)) (g := fun s => (s, y s)) (Filter.Eventually.of_forall fun _ => hK)
      (cl hx rfl) (cl hy e.symm) (by simp [e])
    filter_upwards [hu] with s hs
    exact (Prod.mk.inj hs).2
  have hcx : ContinuousOn x (Set.Ioo a b) := fun t ht => (hx t ht).2.continuousAt.continuousWithinAt
  have hcy : ContinuousOn y (Set.Ioo a b) := fun t ht => (hy t ht).2.continuousAt.continuousWithinAt
  have hv : IsOpen (Set.Ioo a b ∩ {t | x t ≠ y t}) :=
    (hcx.prodMk hcy).isOpen_inter_preimage isOpen_Ioo (isOpen_ne_fun continuous_fst continuous_snd)
  have hd : Disjoint {t | ∀ᶠ s in nhds t, x s = y s} (Set.Ioo a b ∩ {t | x t ≠ y t}) := by
    rw [Set.disjoint_left]
    intro t h1 h2
    exact h2.2 h1.self_of_nhds
  have hsub : Set.Ioo a b ⊆ {t | ∀ᶠ s in nhds t, x s = y s} ∪ Set.Ioo a b ∩ {t | x t ≠ y t} := by
    intro t ht
    by_cases e : x t = y t
    · exact Or.inl (key t ht e)
    · exact Or.inr ⟨ht, e⟩
  have all := isPreconnected_Ioo.subset_left_of_subset_union isOpen_setOfPred_eventually_nhds hv hd hsub
    ⟨t₀, h₀, key t₀ h₀ h⟩
  exact fun t ht => (all ht).self_of_nhds

/-! ## Nothing makes a bicycle turn that runs straight -/

theorem mirror_divisors : look mirrorTable 35 = 1 ∧ (look mirrorTable 494 = 1 ∨ look mirrorTable 494 = 2) ∧
    (look mirrorTable 1001 = 1 ∨ look mirrorTable 1001 = 2) := by decide +kernel

theorem mirrored_safe (x : Fin 13 → ℝ) (q : Fin 4 → ℝ) (h : ∀ s ∈ body, s.2.Safe (cellsAt lam junk p x q)) :
    ∀ s ∈ body, s.2.Safe (cellsAt lam junk p (mirrored x) (mirroredTorques q)) := by
  obtain ⟨s1, s2, s3⟩ := (C126_defined lam junk p x q).mp h
  obtain ⟨a1, a2, a3⟩ := divisors_assigned
  obtain ⟨m1, m2, m3⟩ := mirror_divisors
  have ne : ∀ k, k = 1 ∨ k = 2 → sgn k ≠ 0 := by
    rintro k (rfl | rfl) <;> simp [sgn]
  refine (C126_defined lam junk p _ _).mpr ?_
  rw [cells_mirror _ _ _ _ _ _ a1, cells_mirror _ _ _ _ _ _ a2, cells_mirror _ _ _ _ _ _ a3, m1]
  exact ⟨by simpa [sgn] using s1, mul_ne_zero (ne _ m2) s2, mul_ne_zero (ne _ m3) s3⟩

theorem mirrored_mirrored (x : Fin 13 → ℝ) : mirrored (mirrored x) = x := by
  funext i
  fin_cases i <;> simp [mirrored, stateMirror, coordMirror, speedMirror]

/-- The mirror image of a ride, under torques that depend on the state. -/
theorem mirrored_ride (hlaw : ∀ t x, r t (mirrored x) = mirroredTorques (r t x)) {a b : ℝ} {x : ℝ → Fin 13 → ℝ}
    (hx : RidesOn lam junk p r a b x) : RidesOn lam junk p r a b fun t => mirrored (x t) := by
  intro t ht
  obtain ⟨h1, h2⟩ := hx t ht
  rw [hlaw]
  refine ⟨mirrored_safe _ _ h1, ?_⟩
  rw [C131_mirror]
  exact (mirrorMap.toContinuousLinearMap.hasFDerivAt (x := x t)).comp_hasDerivAt t h2

/-- **C132.** Nothing makes a bicycle turn that runs straight and upright: if the torques do not prefer a side and
at one time the bicycle is upright, on the first axis, heading along it, steered straight, with the rider upright, and
with no lean or steer rate, then this is so during the whole ride, whatever the speed and the driving torque do. -/
theorem C132_stays_straight (hr : SmoothLaw r) (hlaw : ∀ t x, r t (mirrored x) = mirroredTorques (r t x)) {a b : ℝ}
    {x : ℝ → Fin 13 → ℝ} (hx : RidesOn lam junk p r a b x) {t₀ : ℝ} (h₀ : t₀ ∈ Set.Ioo a b)
    (h : ∀ i ∈ ([1, 2, 3, 6, 8, 9, 11, 12] : List (Fin 13)), x t₀ i = 0) :
    ∀ t ∈ Set.Ioo a b, ∀ i ∈ ([1, 2, 3, 6, 8, 9, 11, 12] : List (Fin 13)), x t i = 0 := by
  have e0 : ∀ v : Fin 13 → ℝ, (∀ i ∈ ([1, 2, 3, 6, 8, 9, 11, 12] : List (Fin 13)), v i = 0) ↔ mirrored v = v := by
    intro v
    constructor
    · intro h
      funext i
      have h1 := h 1 (by simp)
      have h2 := h 2 (by simp)
      have h3 := h 3 (by simp)
      have h6 := h 6 (by simp)
      have h8 := h 8 (by simp)
      have h9 := h 9 (by simp)
      have h11 := h 11 (by simp)
      have h12 := h 12 (by simp)
      clear h
      fin_cases i <;> simp [mirrored, stateMirror, coordMirror, speedMirror, h1, h2, h3, h6, h8, h9, h11, h12]
    · intro h i hi
      have e := congrFun h i
      simp only [List.mem_cons, List.not_mem_nil, or_false] at hi
      rcases hi with rfl | rfl | rfl | rfl | rfl | rfl | rfl | rfl <;>
        simp [mirrored, stateMirror, coordMirror, speedMirror] at e <;> linarith
  intro t ht
  rw [e0]
  exact C132_determined hr (mirrored_ride hlaw hx) hx h₀ ((e0 _).mp h) t ht

/-- The hypotheses can be met: a bicycle that is driven by a growing torque rides on, straight. -/
example (Ω : ℝ) : ∃ (f : String → ℝ) (a b : ℝ) (x : ℝ → Fin 13 → ℝ), 0 ∈ Set.Ioo a b ∧ x 0 10 = Ω ∧
    RidesOn 0 0 (slotVector f) (fun t _ => ![0, t, 0, 0]) a b x ∧ ∀ t ∈ Set.Ioo a b, x t 3 = 0 := by
  obtain ⟨f, w, c, h, -⟩ := example_leanUsable 0
  have hr : SmoothLaw fun t _ => (![0, t, 0, 0] : Fin 4 → ℝ) := by
    refine contDiff_pi.mpr fun i => ?_
    fin_cases i
    · exact contDiff_const
    · exact contDiff_fst
    · exact contDiff_const
    · exact contDiff_const
  have z : (![0, (0 : ℝ), 0, 0] : Fin 4 → ℝ) = 0 := by ext i; fin_cases i <;> rfl
  obtain ⟨a, b, h0, x, hx0, hx⟩ := C132_ride_exists (lam := 0) (junk := 0) (p := slotVector f) hr 0 (ahead 0 Ω)
    (by rw [z]; exact (C127_steady_riding _ 0 f 0 w c Ω h).2)
  refine ⟨f, a, b, x, h0, by rw [hx0]; rfl, hx, fun t ht => ?_⟩
  refine C132_stays_straight hr (fun t x => ?_) hx h0 (fun i hi => ?_) t ht 3 (by simp)
  · funext i; fin_cases i <;> simp [mirroredTorques, speedMirror]
  · rw [hx0]
    simp only [List.mem_cons, List.not_mem_nil, or_false] at hi
    rcases hi with rfl | rfl | rfl | rfl | rfl | rfl | rfl | rfl <;> rfl

end BP.EL
