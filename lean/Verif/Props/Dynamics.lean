import Verif.Lemmas.DynamicsState

/-!
# C133: the ride obeys the laws of mechanics; C134: the balance of energy
-/

set_option linter.unusedSimpArgs false

namespace BP.EL

open BP.Spec Matrix

attribute [local irreducible] rates cellsAt evalLinear

variable {lam : ℝ} {junk : ℕ → ℝ} {f : String → ℝ} {r : ℝ → (Fin 13 → ℝ) → Fin 4 → ℝ}

/-- Cells change smoothly during a motion. -/
theorem ride_cells (hr : SmoothLaw r) {p : Fin 36 → ℝ} {x : ℝ → Fin 13 → ℝ} {t : ℝ} (hx : DifferentiableAt ℝ x t)
    (hdef : ∀ s ∈ body, s.2.Safe (cellsAt lam junk p (x t) (r t (x t)))) (l : ℕ) (hl : Nat.testBit assigned l = true) :
    DifferentiableAt ℝ (fun s => cellsAt lam junk p (x s) (r s (x s)) l) t := by
  have h := cells_smooth lam junk p (fun z : ℝ × (Fin 13 → ℝ) => z.2) (fun z => r z.1 z.2) (t, x t) contDiffAt_snd
    hr.contDiffAt hdef l hl
  have d : DifferentiableAt ℝ (fun s => (s, x s)) t := differentiableAt_id.prodMk hx
  exact (h.differentiableAt (by norm_num)).comp t d

theorem speed_assigned : ∀ l ∈ [5085, 5087, 5089, 5092, 5096], Nat.testBit assigned l = true := by decide +kernel

theorem sum_parts (g : Spec.Part → ℝ) : ∑ p, g p = g .rearFrame + g .rearWheel + g .frontFrame + g .frontWheel +
    g .rider := by
  change Finset.sum {Spec.Part.rearFrame, .rearWheel, .frontFrame, .frontWheel, .rider} g = _
  rw [Finset.sum_insert (by decide), Finset.sum_insert (by decide), Finset.sum_insert (by decide),
    Finset.sum_insert (by decide), Finset.sum_singleton]
  ring

/-- The accelerations of the coordinates during a motion that fits the rolling conditions. -/
theorem motion_acc (hr : SmoothLaw r) {p : Fin 36 → ℝ} {a b : ℝ} {x : ℝ → Fin 13 → ℝ}
    (hdef : ∀ t ∈ Set.Ioo a b, ∀ s ∈ body, s.2.Safe (cellsAt lam junk p (x t) (r t (x t)))) {t : ℝ}
    (ht : t ∈ Set.Ioo a b) {x' : Fin 13 → ℝ} (hx : HasDerivAt x x' t)
    (hrate : ∀ i : Fin 13, i.1 < 9 → x' i = rates lam junk p (x t) (r t (x t)) i) : ∃ A : Nine ℝ,
    Dependent (cellsAt lam junk p (x t) (r t (x t))) A (cellsAt lam junk p (x t) (r t (x t)) 553)
      (cellsAt lam junk p (x t) (r t (x t)) 568) (cellsAt lam junk p (x t) (r t (x t)) 620)
      (cellsAt lam junk p (x t) (r t (x t)) 628) (cellsAt lam junk p (x t) (r t (x t)) 664) ∧
    (A.n4 = x' 9 ∧ A.n6 = x' 10 ∧ A.n7 = x' 11 ∧ A.n9 = x' 12) ∧
    HasDerivAt (fun s => rates lam junk p (x s) (r s (x s)) 0) A.n1 t ∧
    HasDerivAt (fun s => rates lam junk p (x s) (r s (x s)) 1) A.n2 t ∧
    HasDerivAt (fun s => rates lam junk p (x s) (r s (x s)) 2) A.n3 t ∧
    HasDerivAt (fun s => rates lam junk p (x s) (r s (x s)) 3) A.n4 t ∧
    HasDerivAt (fun s => rates lam junk p (x s) (r s (x s)) 4) A.n5 t ∧
    HasDerivAt (fun s => rates lam junk p (x s) (r s (x s)) 5) A.n6 t ∧
    HasDerivAt (fun s => rates lam junk p (x s) (r s (x s)) 6) A.n7 t ∧
    HasDerivAt (fun s => rates lam junk p (x s) (r s (x s)) 7) A.n8 t ∧
    HasDerivAt (fun s => rates lam junk p (x s) (r s (x s)) 8) A.n9 t := by
  have d : ∀ l ∈ [5085, 5087, 5089, 5092, 5096], ∃ v,
      HasDerivAt (fun s => cellsAt lam junk p (x s) (r s (x s)) l) v t := fun l hl =>
    ⟨_, (ride_cells hr hx.differentiableAt (hdef t ht) l (speed_assigned l hl)).hasDerivAt⟩
  obtain ⟨v1, y1⟩ := d 5085 (by decide)
  obtain ⟨v2, y2⟩ := d 5087 (by decide)
  obtain ⟨v3, y3⟩ := d 5089 (by decide)
  obtain ⟨v5, y5⟩ := d 5092 (by decide)
  obtain ⟨v8, y8⟩ := d 5096 (by decide)
  have hxi := hasDerivAt_pi.mp hx
  have h := fun s => rate_cells lam junk p (x s) (r s (x s))
  have g := fun s => rate_speeds lam junk (x s) (r s (x s)) p
  have x9 := hxi 9
  have x10 := hxi 10
  have x11 := hxi 11
  have x12 := hxi 12
  have arg := fun s => arg_cells lam junk p (x s) (r s (x s))
  have cu : ∀ s, cellsAt lam junk p (x s) (r s (x s)) 5040 = x s 9 ∧ cellsAt lam junk p (x s) (r s (x s)) 5041 = x s 10 ∧
      cellsAt lam junk p (x s) (r s (x s)) 5042 = x s 11 := fun s =>
    ⟨cell_u lam junk (x s) (r s (x s)) p 0, cell_u lam junk (x s) (r s (x s)) p 1, cell_u lam junk (x s) (r s (x s)) p 2⟩
  obtain ⟨a0, a1, a2, a3, a4, a5, a6, a7⟩ := h t
  obtain ⟨g3, g5, g6, g8⟩ := g t
  refine ⟨⟨v1, v2, v3, x' 9, v5, x' 10, x' 11, v8, x' 12⟩, ?_, ⟨rfl, rfl, rfl, rfl⟩, ?_⟩
  case refine_2 =>
    refine ⟨?_, ?_, ?_, ?_, ?_, ?_, ?_, ?_, ?_⟩
    · simp only [fun s => (h s).1]; exact y1
    · simp only [fun s => (h s).2.1]; exact y2
    · simp only [fun s => (h s).2.2.1]; exact y3
    · simp only [fun s => (g s).1]; exact x9
    · simp only [fun s => (h s).2.2.2.2.1]; exact y5
    · simp only [fun s => (g s).2.1]; exact x10
    · simp only [fun s => (g s).2.2.1]; exact x11
    · simp only [fun s => (h s).2.2.2.2.2.2.2]; exact y8
    · simp only [fun s => (g s).2.2.2]; exact x12
  refine roll_rates (M := fun s => cellsAt lam junk p (x s) (r s (x s))) _ ?_ ?_ ?_ ?_ ?_ ?_ y1 y2 y3 ?_ y5 ?_ ?_ y8
  · filter_upwards [isOpen_Ioo.mem_nhds ht] with s hs
    have := (C126_defined lam junk p (x s) (r s (x s))).mp (hdef s hs)
    exact ⟨cellsAt_equation lam junk p (x s) (r s (x s)), this.1, this.2.1⟩
  · intro l hl s
    obtain ⟨-, c1, c2, c3, c34, c35⟩ := arg s
    obtain ⟨-, d1, d2, d3, d34, d35⟩ := arg t
    simp only [List.mem_cons, List.not_mem_nil, or_false] at hl
    rcases hl with rfl | rfl | rfl | rfl | rfl
    · exact c1.trans d1.symm
    · exact c2.trans d2.symm
    · exact c3.trans d3.symm
    · exact c34.trans d34.symm
    · exact c35.trans d35.symm
  · simp only [fun s => (arg s).1.1]; exact (hxi 2).congr_deriv ((hrate 2 (by decide)).trans a2)
  · simp only [fun s => (arg s).1.2.1]; exact (hxi 3).congr_deriv ((hrate 3 (by decide)).trans <| g3.trans (cu t).1.symm)
  · simp only [fun s => (arg s).1.2.2.1]; exact (hxi 4).congr_deriv ((hrate 4 (by decide)).trans a4)
  · simp only [fun s => (arg s).1.2.2.2]; exact (hxi 6).congr_deriv ((hrate 6 (by decide)).trans <| g6.trans (cu t).2.2.symm)
  · simp only [fun s => (cu s).1]; exact x9
  · simp only [fun s => (cu s).2.1]; exact x10
  · simp only [fun s => (cu s).2.2]; exact x11

/-- The places of the particles of a body depend on nine coordinates. -/
theorem conf_congr (f : String → ℝ) (lam : ℝ) {x y : Fin 13 → ℝ} (same : ∀ i : Fin 13, i.1 < 9 → y i = x i) :
    confOf f lam y = confOf f lam x ∧ ∀ part v, partTurn lam y part v = partTurn lam x part v := by
  have z2 := same 2 (by decide)
  have z3 := same 3 (by decide)
  have z4 := same 4 (by decide)
  have z5 := same 5 (by decide)
  have z6 := same 6 (by decide)
  have z7 := same 7 (by decide)
  have z8 := same 8 (by decide)
  refine ⟨by simp only [confOf, z2, z3, z4, z5, z6, z7, z8], fun part v => ?_⟩
  cases part <;> simp only [partTurn, z2, z3, z4, z5, z6, z7, z8]

/-- The sums over the particles. -/
theorem motion_sums (f : String → ℝ) (lam : ℝ) {x x' : ℝ → Fin 13 → ℝ} {t : ℝ}
    (hx : ∀ᶠ s in nhds t, HasDerivAt x (x' s) s) {ι : Spec.Part → Type} [∀ p, Fintype (ι p)] (m : ∀ p, ι p → ℝ)
    (c : ∀ p, ι p → Fin 3 → ℝ) (made : ∀ p, MadeOf (m p) (c p) (p.weighs f))
    {y : ℝ → Fin 13 → ℝ} {y' : Fin 13 → ℝ} (hy : ∀ i : Fin 13, i.1 < 9 → HasDerivAt (fun s => y s i) (y' i) t)
    (same : ∀ i : Fin 13, i.1 < 9 → y t i = x t i) {A : Nine ℝ} (d1 : HasDerivAt (fun s => x' s 0) A.n1 t)
    (d2 : HasDerivAt (fun s => x' s 1) A.n2 t) (d3 : HasDerivAt (fun s => x' s 2) A.n3 t)
    (d4 : HasDerivAt (fun s => x' s 3) A.n4 t) (d5 : HasDerivAt (fun s => x' s 4) A.n5 t)
    (d6 : HasDerivAt (fun s => x' s 5) A.n6 t) (d7 : HasDerivAt (fun s => x' s 6) A.n7 t)
    (d8 : HasDerivAt (fun s => x' s 7) A.n8 t) (d9 : HasDerivAt (fun s => x' s 8) A.n9 t) :
    (∀ (p : Spec.Part) (i : ι p), (∀ᶠ s in nhds t, DifferentiableAt ℝ (fun s => p.place f lam (x s) (c p i)) s) ∧
      DifferentiableAt ℝ (deriv fun s => p.place f lam (x s) (c p i)) t ∧
      DifferentiableAt ℝ (fun s => p.place f lam (y s) (c p i)) t) ∧
    ∑ p, ∑ i, m p i * (deriv (deriv fun s => p.place f lam (x s) (c p i)) t ⬝ᵥ
        deriv (fun s => p.place f lam (y s) (c p i)) t) =
      inertia5 reals (heavyOf f) (motionOf f lam (x t) (nineOf (x' t)) A) (motionOf f lam (x t) (nineOf y') (nineOf y')) ∧
    ∑ p, ∑ i, m p i * (f "g" * deriv (fun s => p.place f lam (y s) (c p i)) t 2) =
      f "g" * weight5 reals (heavyOf f) (motionOf f lam (x t) (nineOf y') (nineOf y')) := by
  obtain ⟨F, hF⟩ : ∃ F : Spec.Part → ℝ → Fr ℝ, F = fun p s =>
    partFr (motionOf f lam (x s) (nineOf (x' s)) A) p := ⟨_, rfl⟩
  obtain ⟨G, hG⟩ : ∃ G : Spec.Part → Fr ℝ, G = fun p =>
    partFr (motionOf f lam (y t) (nineOf y') (nineOf y')) p := ⟨_, rfl⟩
  have rx : ∀ p, ∀ᶠ s in nhds t, Rigid (fun t => p.place f lam (x t)) (fun t => partTurn lam (x t) p) (F p s) s := by
    intro p
    filter_upwards [hx] with s hs
    rw [hF]
    exact parts_rigid f lam A (fun i _ => hasDerivAt_pi.mp hs i) p
  have ry : ∀ p, Rigid (fun t => p.place f lam (y t)) (fun t => partTurn lam (y t) p) (G p) t := by
    intro p
    rw [hG]
    exact parts_rigid f lam (nineOf y') hy p
  have sp : ∀ p, Speeds (F p) t := by
    intro p
    rw [hF]
    refine parts_speeds f lam A (fun i hi => (hasDerivAt_pi.mp hx.self_of_nhds i).congr_deriv ?_) d1 d2 d3 d4 d5 d6 d7 d8
      d9 p
    fin_cases i <;> first | rfl | (exfalso; revert hi; decide)
  have px := fun p i => point_moves (rx p) (sp p) (c p i)
  have py := fun p i => point_velocity (ry p) (c p i)
  refine ⟨fun p i => ⟨(px p i).1, (px p i).2.differentiableAt, (py p i).differentiableAt⟩, ?_⟩
  simp only [fun p i => (px p i).2.deriv, fun p i => (py p i).deriv]
  obtain ⟨ec, et⟩ := conf_congr f lam same
  have body : ∀ p : Spec.Part, _ := fun p => body_sums (m p) (c p) _ _ _ _ _ (made p).mass (made p).centre (made p).i11
    (made p).i22 (made p).i33 (made p).i31 (made p).i12 (made p).i23 (rx p).self_of_nhds (ry p) (fun v => (et p v).symm)
  have w : ∀ p : Spec.Part, ∑ i, m p i * (f "g" * partTurn lam (y t) p ((G p).v.vec + crs (G p).w.vec (c p i)) 2) =
      f "g" * ((p.weighs f).1 * sinking reals (G p)) := by
    intro p
    rw [← (body p).2, Finset.mul_sum]
    exact Finset.sum_congr rfl fun i _ => by ring
  rw [Finset.sum_congr rfl fun p _ => (body p).1, Finset.sum_congr rfl fun p _ => w p, sum_parts, sum_parts]
  refine ⟨?_, ?_⟩
  · rw [hF, hG, motionOf, motionOf, motionOf, ec]; rfl
  · rw [hG, motionOf, motionOf, ec]
    simp only [weight5, Part.weighs, partFr, reals, heavyOf]
    ring

/-- The power of the forces for another motion, when the ride fits the rolling conditions. -/
theorem motion_power (hr : SmoothLaw r) {a b : ℝ} {x x' : ℝ → Fin 13 → ℝ}
    (hdef : ∀ t ∈ Set.Ioo a b, ∀ s ∈ body, s.2.Safe (cellsAt lam junk (slotVector f) (x t) (r t (x t))))
    (hx : ∀ t ∈ Set.Ioo a b, HasDerivAt x (x' t) t)
    (hrate : ∀ t ∈ Set.Ioo a b, ∀ i : Fin 13, i.1 < 9 → x' t i = rates lam junk (slotVector f) (x t) (r t (x t)) i)
    {t : ℝ} (ht : t ∈ Set.Ioo a b) {ι : Spec.Part → Type} [∀ p, Fintype (ι p)] (m : ∀ p, ι p → ℝ)
    (c : ∀ p, ι p → Fin 3 → ℝ) (made : ∀ p, MadeOf (m p) (c p) (p.weighs f))
    {y : ℝ → Fin 13 → ℝ} {y' : Fin 13 → ℝ} (hy : ∀ i : Fin 13, i.1 < 9 → HasDerivAt (fun s => y s i) (y' i) t)
    (same : ∀ i : Fin 13, i.1 < 9 → y t i = x t i)
    (roll : Dependent (cellsAt lam junk (slotVector f) (x t) (r t (x t))) (nineOf y') 0 0 0 0 0) :
    let M := cellsAt lam junk (slotVector f) (x t) (r t (x t))
    (∀ (p : Spec.Part) (i : ι p), (∀ᶠ s in nhds t, DifferentiableAt ℝ (fun s => p.place f lam (x s) (c p i)) s) ∧
      DifferentiableAt ℝ (deriv fun s => p.place f lam (x s) (c p i)) t ∧
      DifferentiableAt ℝ (fun s => p.place f lam (y s) (c p i)) t) ∧
    ∑ p, ∑ i, m p i * (deriv (deriv fun s => p.place f lam (x s) (c p i)) t ⬝ᵥ
        deriv (fun s => p.place f lam (y s) (c p i)) t) =
      ∑ p, ∑ i, m p i * (f "g" * deriv (fun s => p.place f lam (y s) (c p i)) t 2) +
      (r t (x t) 0 * y' 3 + r t (x t) 1 * y' 5 + r t (x t) 2 * y' 6 +
        (r t (x t) 3 - f "k9" * x t 8 - f "c9" * x t 12) * y' 8) +
      (y' 3 * (M 949 * x' t 9 + M 950 * x' t 10 + M 951 * x' t 11 + M 945 * x' t 12 + M 952 - M 753) +
      y' 5 * (M 963 * x' t 9 + M 964 * x' t 10 + M 965 * x' t 11 + M 960 * x' t 12 + M 966 - M 754) +
      y' 6 * (M 977 * x' t 9 + M 978 * x' t 10 + M 979 * x' t 11 + M 973 * x' t 12 + M 980 - M 755) +
      y' 8 * (M 981 * x' t 9 + M 982 * x' t 10 + M 983 * x' t 11 + M 905 * x' t 12 + M 984 - M 756)) := by
  intro M
  obtain ⟨A, dep, ⟨A4, A6, A7, A9⟩, d1, d2, d3, d4, d5, d6, d7, d8, d9⟩ := motion_acc hr hdef ht (hx t ht) (hrate t ht)
  have near : ∀ i : Fin 13, i.1 < 9 →
      (fun s => x' s i) =ᶠ[nhds t] fun s => rates lam junk (slotVector f) (x s) (r s (x s)) i := fun i hi => by
    filter_upwards [isOpen_Ioo.mem_nhds ht] with s hs using hrate s hs i hi
  obtain ⟨diff, s1, s2⟩ := motion_sums f lam (x' := x')
    (by filter_upwards [isOpen_Ioo.mem_nhds ht] with s hs using hx s hs) m c made hy same
    (d1.congr_of_eventuallyEq (near 0 (by decide))) (d2.congr_of_eventuallyEq (near 1 (by decide)))
    (d3.congr_of_eventuallyEq (near 2 (by decide))) (d4.congr_of_eventuallyEq (near 3 (by decide)))
    (d5.congr_of_eventuallyEq (near 4 (by decide))) (d6.congr_of_eventuallyEq (near 5 (by decide)))
    (d7.congr_of_eventuallyEq (near 6 (by decide))) (d8.congr_of_eventuallyEq (near 7 (by decide)))
    (d9.congr_of_eventuallyEq (near 8 (by decide)))
  refine ⟨diff, ?_⟩
  have heq := cellsAt_equation lam junk (slotVector f) (x t) (r t (x t))
  have pw := power_rows heq A (nineOf y') dep roll
  have nine : nineOf (x' t) = nineOf (rates lam junk (slotVector f) (x t) (r t (x t))) := by
    unfold nineOf
    rw [hrate t ht 0 (by decide), hrate t ht 1 (by decide), hrate t ht 2 (by decide), hrate t ht 3 (by decide),
      hrate t ht 4 (by decide), hrate t ht 5 (by decide), hrate t ht 6 (by decide), hrate t ht 7 (by decide),
      hrate t ht 8 (by decide)]
  rw [s1, s2, nine]
  have spring := spring_cell heq
  have q8 : cellsAt lam junk (slotVector f) (x t) (r t (x t)) 5039 = x t 8 :=
    cell_q lam junk (x t) (r t (x t)) (slotVector f) 8 (by decide)
  have u9 : cellsAt lam junk (slotVector f) (x t) (r t (x t)) 5043 = x t 12 :=
    cell_u lam junk (x t) (r t (x t)) (slotVector f) 3
  have T0 : cellsAt lam junk (slotVector f) (x t) (r t (x t)) 5044 = r t (x t) 0 :=
    cell_r lam junk (x t) (r t (x t)) (slotVector f) 0
  have T1 : cellsAt lam junk (slotVector f) (x t) (r t (x t)) 5045 = r t (x t) 1 :=
    cell_r lam junk (x t) (r t (x t)) (slotVector f) 1
  have T2 : cellsAt lam junk (slotVector f) (x t) (r t (x t)) 5046 = r t (x t) 2 :=
    cell_r lam junk (x t) (r t (x t)) (slotVector f) 2
  have T3 : cellsAt lam junk (slotVector f) (x t) (r t (x t)) 5047 = r t (x t) 3 :=
    cell_r lam junk (x t) (r t (x t)) (slotVector f) 3
  have k9 : cellsAt lam junk (slotVector f) (x t) (r t (x t)) 5070 = f "k9" :=
    cell_p lam junk (x t) (r t (x t)) (slotVector f) 22
  have c9 : cellsAt lam junk (slotVector f) (x t) (r t (x t)) 5048 = f "c9" :=
    cell_p lam junk (x t) (r t (x t)) (slotVector f) 0
  have g5 : cellsAt lam junk (slotVector f) (x t) (r t (x t)) 5053 = f "g" :=
    cell_p lam junk (x t) (r t (x t)) (slotVector f) 5
  dsimp only at pw
  rw [conf_cells, heavy_cells, speed_rates, spring, q8, u9, T0, T1, T2, T3, k9, c9, g5, A4, A6, A7, A9] at pw
  refine Eq.trans pw ?_
  simp only [nineOf, motionOf, M]
  ring

/-- The power of the forces for another motion that fits the rolling conditions. -/
theorem ride_power (hr : SmoothLaw r) {a b : ℝ} {x : ℝ → Fin 13 → ℝ} (hx : RidesOn lam junk (slotVector f) r a b x)
    {t : ℝ} (ht : t ∈ Set.Ioo a b) {ι : Spec.Part → Type} [∀ p, Fintype (ι p)] (m : ∀ p, ι p → ℝ)
    (c : ∀ p, ι p → Fin 3 → ℝ) (made : ∀ p, MadeOf (m p) (c p) (p.weighs f))
    {y : ℝ → Fin 13 → ℝ} {y' : Fin 13 → ℝ} (hy : ∀ i : Fin 13, i.1 < 9 → HasDerivAt (fun s => y s i) (y' i) t)
    (same : ∀ i : Fin 13, i.1 < 9 → y t i = x t i)
    (roll : Dependent (cellsAt lam junk (slotVector f) (x t) (r t (x t))) (nineOf y') 0 0 0 0 0) :
    (∀ (p : Spec.Part) (i : ι p), (∀ᶠ s in nhds t, DifferentiableAt ℝ (fun s => p.place f lam (x s) (c p i)) s) ∧
      DifferentiableAt ℝ (deriv fun s => p.place f lam (x s) (c p i)) t ∧
      DifferentiableAt ℝ (fun s => p.place f lam (y s) (c p i)) t) ∧
    ∑ p, ∑ i, m p i * (deriv (deriv fun s => p.place f lam (x s) (c p i)) t ⬝ᵥ
        deriv (fun s => p.place f lam (y s) (c p i)) t) =
      ∑ p, ∑ i, m p i * (f "g" * deriv (fun s => p.place f lam (y s) (c p i)) t 2) +
      (r t (x t) 0 * y' 3 + r t (x t) 1 * y' 5 + r t (x t) 2 * y' 6 +
        (r t (x t) 3 - f "k9" * x t 8 - f "c9" * x t 12) * y' 8) := by
  obtain ⟨diff, pw⟩ := motion_power hr (x' := fun s => rates lam junk (slotVector f) (x s) (r s (x s)))
    (fun s hs => (hx s hs).1) (fun s hs => (hx s hs).2) (fun _ _ _ _ => rfl) ht m c made hy same roll
  refine ⟨diff, pw.trans ?_⟩
  have heq := cellsAt_equation lam junk (slotVector f) (x t) (r t (x t))
  have h1001 := ((C126_defined lam junk (slotVector f) (x t) (r t (x t))).mp (hx t ht).1).2.2
  obtain ⟨t4, t6, t7, t9⟩ := dyn_hold heq h1001
  have e9 : rates lam junk (slotVector f) (x t) (r t (x t)) 9 = cellsAt lam junk (slotVector f) (x t) (r t (x t)) 5099 :=
    rates_eq _ _ _ _ _ 9
  have e10 : rates lam junk (slotVector f) (x t) (r t (x t)) 10 = cellsAt lam junk (slotVector f) (x t) (r t (x t)) 5100 :=
    rates_eq _ _ _ _ _ 10
  have e11 : rates lam junk (slotVector f) (x t) (r t (x t)) 11 = cellsAt lam junk (slotVector f) (x t) (r t (x t)) 5101 :=
    rates_eq _ _ _ _ _ 11
  have e12 : rates lam junk (slotVector f) (x t) (r t (x t)) 12 = cellsAt lam junk (slotVector f) (x t) (r t (x t)) 5102 :=
    rates_eq _ _ _ _ _ 12
  rw [e9, e10, e11, e12, t4, t6, t7, t9]
  ring

/-! ## The laws of mechanics -/

/-- **C133.** A ride that follows the equations of motion of the model obeys d'Alembert's principle.  Let the five bodies
of the bicycle be made of particles.  Take any motion `y` that passes the same place at the time `t` and whose wheels
roll then.  The power of the forces that the particles need for their accelerations during the ride, on the velocities
of `y`, is the power of gravity and of the torques: the roll torque on the frame, the torque on the rear wheel, the
steer torque, and the torque on the rider together with the spring and the damper of the lean axis. -/
theorem C133_alembert (hr : SmoothLaw r) {a b : ℝ} {x : ℝ → Fin 13 → ℝ} (hx : RidesOn lam junk (slotVector f) r a b x)
    {t : ℝ} (ht : t ∈ Set.Ioo a b) (hrf : 0 < f "rf") {ι : Spec.Part → Type} [∀ p, Fintype (ι p)] (m : ∀ p, ι p → ℝ)
    (c : ∀ p, ι p → Fin 3 → ℝ) (made : ∀ p, MadeOf (m p) (c p) (p.weighs f))
    (y : ℝ → Fin 13 → ℝ) (hy : DifferentiableAt ℝ y t) (same : ∀ i : Fin 13, i.1 < 9 → y t i = x t i)
    (roll : RollsAt f y t) :
    let X (p : Spec.Part) (i : ι p) (s : ℝ) : Fin 3 → ℝ := p.place f lam (x s) (c p i)
    let Y (p : Spec.Part) (i : ι p) (s : ℝ) : Fin 3 → ℝ := p.place f lam (y s) (c p i)
    (∀ p i, (∀ᶠ s in nhds t, DifferentiableAt ℝ (X p i) s) ∧ DifferentiableAt ℝ (deriv (X p i)) t ∧
      DifferentiableAt ℝ (Y p i) t) ∧
    ∑ p, ∑ i, m p i * (deriv (deriv (X p i)) t ⬝ᵥ deriv (Y p i) t) =
      ∑ p, ∑ i, m p i * (f "g" * deriv (Y p i) t 2) +
      (r t (x t) 0 * deriv y t 3 + r t (x t) 1 * deriv y t 5 + r t (x t) 2 * deriv y t 6 +
        (r t (x t) 3 - f "k9" * x t 8 - f "c9" * x t 12) * deriv y t 8) :=
  ride_power hr hx ht m c made (fun i _ => hasDerivAt_pi.mp hy.hasDerivAt i) same
    (rolls_dependent lam junk f (x t) (r t (x t)) (hx t ht).1 hrf hy.hasDerivAt same roll)

/-- The ride itself is such a motion. -/
theorem C133_ride_rolls {a b : ℝ} {x : ℝ → Fin 13 → ℝ} (hx : RidesOn lam junk (slotVector f) r a b x)
    {t : ℝ} (ht : t ∈ Set.Ioo a b) (hrf : 0 < f "rf") (hrr : f "rr" ≠ 0) (hroll : Real.cos (x t 3) ≠ 0) :
    RollsAt f x t where
  rear φ hφ := (C130_rear_rolls lam junk (slotVector f) x (r t (x t)) t (hx t ht).2 (hx t ht).1 hrr hroll φ
    (congrFun hφ 2)).2
  front φ hφ := C130_front_rolls lam junk (slotVector f) x (r t (x t)) t (hx t ht).2 (hx t ht).1 hrf φ hφ

/-! ## Energy -/

theorem rate_dependent {p : Fin 36 → ℝ} {x : Fin 13 → ℝ} {T : Fin 4 → ℝ}
    (hdef : ∀ s ∈ body, s.2.Safe (cellsAt lam junk p x T)) :
    Dependent (cellsAt lam junk p x T) (nineOf (rates lam junk p x T)) 0 0 0 0 0 := by
  have heq := cellsAt_equation lam junk p x T
  have h494 := ((C126_defined lam junk p x T).mp hdef).2.1
  obtain ⟨r1, r2, r3, r4, r5⟩ := roll_solved heq h494
  obtain ⟨a0, a1, a2, a3, a4, a5, a6, a7⟩ := rate_cells lam junk p x T
  refine roll_unique heq h494 _ 0 0 0 0 0 ?_ ?_ ?_ ?_ ?_ <;> simp only [nineOf, add_zero, a0, a1, a2, a3, a4, a5, a6, a7]
  · exact r1
  · exact r2
  · exact r3
  · exact r4
  · exact r5

/-- **C134.** The balance of energy: the energy changes as fast as the torques supply it, less what the damper takes. -/
theorem C134_energy_balance (hr : SmoothLaw r) {a b : ℝ} {x : ℝ → Fin 13 → ℝ}
    (hx : RidesOn lam junk (slotVector f) r a b x) {t : ℝ} (ht : t ∈ Set.Ioo a b) {ι : Spec.Part → Type}
    [∀ p, Fintype (ι p)] (m : ∀ p, ι p → ℝ) (c : ∀ p, ι p → Fin 3 → ℝ)
    (made : ∀ p, MadeOf (m p) (c p) (p.weighs f)) :
    HasDerivAt (energy f lam m c x) (r t (x t) 0 * x t 9 + r t (x t) 1 * x t 10 + r t (x t) 2 * x t 11 +
      r t (x t) 3 * x t 12 - f "c9" * x t 12 ^ 2) t := by
  have hxi := hasDerivAt_pi.mp (hx t ht).2
  obtain ⟨h1, h2⟩ := ride_power hr hx ht m c made (fun i _ => hxi i) (fun _ _ => rfl) (rate_dependent (hx t ht).1)
  obtain ⟨g3, g5, g6, g8⟩ := rate_speeds lam junk (x t) (r t (x t)) (slotVector f)
  rw [g3, g5, g6, g8] at h2
  have kin : HasDerivAt (fun s => ∑ p, ∑ i, m p i * (deriv (fun s => p.place f lam (x s) (c p i)) s ⬝ᵥ
      deriv (fun s => p.place f lam (x s) (c p i)) s) / 2)
      (∑ p, ∑ i, m p i * (deriv (deriv fun s => p.place f lam (x s) (c p i)) t ⬝ᵥ
        deriv (fun s => p.place f lam (x s) (c p i)) t)) t := by
    refine HasDerivAt.fun_sum fun p _ => HasDerivAt.fun_sum fun i _ => ?_
    have d := hasDerivAt_pi.mp (h1 p i).2.1.hasDerivAt
    simp only [dotProduct, Fin.sum_univ_three]
    refine ((((((d 0).mul (d 0)).add ((d 1).mul (d 1))).add ((d 2).mul (d 2))).const_mul (m p i)).div_const
      2).congr_deriv ?_
    ring
  have pot : HasDerivAt (fun s => ∑ p, ∑ i, m p i * (f "g" * p.place f lam (x s) (c p i) 2))
      (∑ p, ∑ i, m p i * (f "g" * deriv (fun s => p.place f lam (x s) (c p i)) t 2)) t := by
    refine HasDerivAt.fun_sum fun p _ => HasDerivAt.fun_sum fun i _ => ?_
    exact ((hasDerivAt_pi.mp (h1 p i).2.2.hasDerivAt 2).const_mul _).const_mul _
  have e8 := (hxi 8).congr_deriv g8
  refine ((kin.sub pot).add (((e8.pow 2).const_mul (f "k9")).div_const 2)).congr_deriv ?_
  rw [h2]
  simp only [Nat.cast_ofNat, Nat.add_one_sub_one, pow_one]
  ring

/-- **C134.** Without torques and without a damper the energy keeps its value during the whole ride. -/
theorem C134_energy_kept {a b : ℝ} {x : ℝ → Fin 13 → ℝ} (hx : RidesOn lam junk (slotVector f) (fun _ _ => 0) a b x)
    (hc : f "c9" = 0) {ι : Spec.Part → Type} [∀ p, Fintype (ι p)] (m : ∀ p, ι p → ℝ) (c : ∀ p, ι p → Fin 3 → ℝ)
    (made : ∀ p, MadeOf (m p) (c p) (p.weighs f)) :
    ∀ s ∈ Set.Ioo a b, ∀ t ∈ Set.Ioo a b, energy f lam m c x s = energy f lam m c x t := by
  have hr : SmoothLaw fun _ _ => (0 : Fin 4 → ℝ) := contDiff_const
  have key : ∀ t ∈ Set.Ioo a b, HasDerivAt (energy f lam m c x) 0 t := fun t ht =>
    (C134_energy_balance hr hx ht m c made).congr_deriv (by simp [hc])
  have cont : ∀ u v, u ∈ Set.Ioo a b → v ∈ Set.Ioo a b → u ≤ v → energy f lam m c x v = energy f lam m c x u := by
    intro u v hu hv huv
    have sub : Set.Icc u v ⊆ Set.Ioo a b := fun w hw => ⟨hu.1.trans_le hw.1, hw.2.trans_lt hv.2⟩
    exact constant_of_has_deriv_right_zero (fun w hw => (key w (sub hw)).continuousAt.continuousWithinAt)
      (fun w hw => (key w (sub ⟨hw.1, hw.2.le⟩)).hasDerivWithinAt) v ⟨huv, le_rfl⟩
  intro s hs t ht
  rcases le_total s t with h | h
  · exact (cont s t hs ht h).symm
  · exact cont t s ht hs h

/-- **C134.** Without torques, with a damper that does not drive, the energy never grows. -/
theorem C134_energy_falls {a b : ℝ} {x : ℝ → Fin 13 → ℝ} (hx : RidesOn lam junk (slotVector f) (fun _ _ => 0) a b x)
    (hc : 0 ≤ f "c9") {ι : Spec.Part → Type} [∀ p, Fintype (ι p)] (m : ∀ p, ι p → ℝ) (c : ∀ p, ι p → Fin 3 → ℝ)
    (made : ∀ p, MadeOf (m p) (c p) (p.weighs f)) :
    ∀ s ∈ Set.Ioo a b, ∀ t ∈ Set.Ioo a b, s ≤ t → energy f lam m c x t ≤ energy f lam m c x s := by
  have hr : SmoothLaw fun _ _ => (0 : Fin 4 → ℝ) := contDiff_const
  have key := fun t ht => C134_energy_balance hr hx (t := t) ht m c made
  have anti : AntitoneOn (energy f lam m c x) (Set.Ioo a b) := by
    refine antitoneOn_of_deriv_nonpos (convex_Ioo a b) (fun w hw => (key w hw).continuousAt.continuousWithinAt)
      (fun w hw => (key w (interior_subset hw)).differentiableAt.differentiableWithinAt) fun w hw => ?_
    rw [(key w (interior_subset hw)).deriv]
    simp only [Pi.zero_apply, zero_mul, add_zero, zero_sub, Left.neg_nonpos_iff]
    positivity
  exact fun s hs t ht h => anti hs ht h

/-! ## Particles -/

/-- Every body with physical moments of inertia is made of six particles. -/
theorem particles_exist (mass i11 i22 i33 i31 : ℝ) (hm : 0 < mass) (h1 : i11 ≤ i22 + i33) (h2 : i22 ≤ i11 + i33)
    (h3 : i33 ≤ i11 + i22) (h4 : 4 * i31 ^ 2 ≤ (i22 + i33 - i11) * (i11 + i22 - i33)) :
    ∃ (m : Fin 6 → ℝ) (c : Fin 6 → Fin 3 → ℝ), (∀ i, 0 < m i) ∧ MadeOf m c (mass, i11, i22, i33, i31) := by
  obtain ⟨X, hX⟩ : ∃ X, X = 3 / mass * ((i22 + i33 - i11) / 2) := ⟨_, rfl⟩
  obtain ⟨Y, hY⟩ : ∃ Y, Y = 3 / mass * ((i11 + i33 - i22) / 2) := ⟨_, rfl⟩
  obtain ⟨Z, hZ⟩ : ∃ Z, Z = 3 / mass * ((i11 + i22 - i33) / 2) := ⟨_, rfl⟩
  obtain ⟨W, hW⟩ : ∃ W, W = 3 / mass * (-i31) := ⟨_, rfl⟩
  have k : 0 < 3 / mass := by positivity
  have X0 : 0 ≤ X := by rw [hX]; exact mul_nonneg k.le (by linarith)
  have Y0 : 0 ≤ Y := by rw [hY]; exact mul_nonneg k.le (by linarith)
  have Z0 : 0 ≤ Z := by rw [hZ]; exact mul_nonneg k.le (by linarith)
  have W0 : W ^ 2 ≤ X * Z := by
    rw [hW, hX, hZ]
    have : 0 ≤ (3 / mass) ^ 2 * ((i22 + i33 - i11) * (i11 + i22 - i33) - 4 * i31 ^ 2) :=
      mul_nonneg (sq_nonneg _) (by linarith)
    nlinarith
  obtain ⟨α, hα⟩ : ∃ α, α ^ 2 = X ∧ 0 ≤ α := ⟨√X, Real.sq_sqrt X0, Real.sqrt_nonneg X⟩
  obtain ⟨β, hβ⟩ : ∃ β, β ^ 2 = Y := ⟨√Y, Real.sq_sqrt Y0⟩
  obtain ⟨δ, γ, e1, e2⟩ : ∃ δ γ, α * δ = W ∧ δ ^ 2 + γ ^ 2 = Z := by
    by_cases h : α = 0
    · have x0 : X = 0 := by rw [← hα.1, h]; ring
      rw [x0, zero_mul] at W0
      have w0 : W = 0 := by nlinarith [sq_nonneg W]
      exact ⟨0, √Z, by rw [w0, mul_zero], by rw [Real.sq_sqrt Z0]; ring⟩
    · have hp : 0 < α ^ 2 := by positivity
      refine ⟨W / α, √(Z - (W / α) ^ 2), by field_simp, ?_⟩
      rw [Real.sq_sqrt]
      · ring
      · rw [div_pow, sub_nonneg, div_le_iff₀ hp, hα.1]; linarith
  refine ⟨fun _ => mass / 6, ![![α, 0, δ], ![-α, 0, -δ], ![0, β, 0], ![0, -β, 0], ![0, 0, γ], ![0, 0, -γ]],
    fun _ => by positivity, ?_⟩
  have mX : mass * X = 3 * ((i22 + i33 - i11) / 2) := by rw [hX]; field_simp
  have mY : mass * Y = 3 * ((i11 + i33 - i22) / 2) := by rw [hY]; field_simp
  have mZ : mass * Z = 3 * ((i11 + i22 - i33) / 2) := by rw [hZ]; field_simp
  have mW : mass * W = 3 * (-i31) := by rw [hW]; field_simp
  rw [← hα.1] at mX
  rw [← hβ] at mY
  rw [← e2] at mZ
  rw [← e1] at mW
  constructor
  · simp [Fin.sum_univ_six]; ring
  · intro j
    fin_cases j <;> simp [Fin.sum_univ_six]
  · simp [Fin.sum_univ_six]; linear_combination (mY + mZ) / 3
  · simp [Fin.sum_univ_six]; linear_combination (mX + mZ) / 3
  · simp [Fin.sum_univ_six]; linear_combination (mX + mY) / 3
  · simp [Fin.sum_univ_six]; linear_combination mW / 3
  · simp [Fin.sum_univ_six]
  · simp [Fin.sum_univ_six]

/-- A bicycle with a rider. -/
theorem example_leanBodies (κ : ℝ) : ∃ (f : String → ℝ) (w c : ℝ), LeanUsable (fun _ _ _ _ _ _ _ => 0) f 0 w c ∧
    f "c9" = κ ∧ 0 < f "rf" ∧ 0 < f "rr" ∧ f "mg" = 70 ∧
    ∀ p : Spec.Part, ∃ (m : Fin 6 → ℝ) (c : Fin 6 → Fin 3 → ℝ), (∀ i, 0 < m i) ∧ MadeOf m c (p.weighs f) := by
  let f : String → ℝ := fun k =>
    if k = "c9" then κ else if k = "mg" then 70 else if k = "rf" then 1 / 3 else if k = "rr" then 1 / 3
    else if k = "d1" then 1 else if k = "d2" then 0 else if k = "d3" then -1 / 10
    else if k = "d4" then -1 / 2 else if k = "l6" then -1 / 2 else if k = "g" then 981 / 100
    else if k = "ic31" then 1 / 4 else if k = "ie31" then 0 else if k = "ig31" then 0 else 1
  have hP : (LeanPar.of f).Physical := by
    constructor <;> simp [LeanPar.of, f]
    all_goals
      intro a b hab
      rcases hab with hab | hab
      · have := sq_pos_of_ne_zero hab; nlinarith [sq_nonneg (a + b), sq_nonneg b]
      · have := sq_pos_of_ne_zero hab; nlinarith [sq_nonneg (a + b), sq_nonneg a]
  refine ⟨f, 9 / 10, 1 / 10, ⟨rfl, ⟨?_, 1 / 3, ?_⟩, by norm_num, by simp [f], by simp [f], physical_drive hP,
    physical_massive hP _ _ _⟩, by simp [f], by simp [f], by simp [f], by simp [f], ?_⟩
  · ext i; fin_cases i <;>
      simp [LeanPar.frontCentre, LeanPar.axisPoint, LeanPar.rearCentre, acrossDir, steerDir, LeanPar.of, f]
    norm_num
  · ext i; fin_cases i <;>
      simp [LeanPar.axisPoint, LeanPar.rearCentre, acrossDir, steerDir, LeanPar.of, f]
    norm_num
  · intro p
    cases p <;> refine particles_exist _ _ _ _ _ ?_ ?_ ?_ ?_ ?_ <;> simp [f] <;> norm_num

/-- The hypotheses can be met: a ride with a driving torque that grows, of a bicycle whose bodies are made of
particles. -/
example (Ω κ : ℝ) : ∃ (f : String → ℝ) (a b : ℝ) (x : ℝ → Fin 13 → ℝ) (m : Spec.Part → Fin 6 → ℝ)
    (c : Spec.Part → Fin 6 → Fin 3 → ℝ), 0 ∈ Set.Ioo a b ∧ x 0 10 = Ω ∧
    RidesOn 0 0 (slotVector f) (fun t _ => ![0, t, 0, 0]) a b x ∧ SmoothLaw (fun t _ => (![0, t, 0, 0] : Fin 4 → ℝ)) ∧
    0 < f "rf" ∧ (∀ p, MadeOf (m p) (c p) (p.weighs f)) ∧ RollsAt f x 0 ∧ f "c9" = κ := by
  obtain ⟨f, w, c, h, h1, h2, h3, -, h5⟩ := example_leanBodies κ
  choose m c hm using h5
  have hr : SmoothLaw fun t _ => (![0, t, 0, 0] : Fin 4 → ℝ) := by
    refine contDiff_pi.mpr fun i => ?_
    fin_cases i
    · exact contDiff_const
    · exact contDiff_fst
    · exact contDiff_const
    · exact contDiff_const
  have z : (![0, (0 : ℝ), 0, 0] : Fin 4 → ℝ) = 0 := by ext i; fin_cases i <;> rfl
  obtain ⟨a, b, h0, x, hx0, hx⟩ := C132_ride_exists (lam := 0) (junk := 0) (p := slotVector f) hr 0 (ahead 0 Ω)
    (by rw [z]; exact (C127_steady_riding _ 0 f 0 w _ Ω h).2)
  refine ⟨f, a, b, x, m, c, h0, by rw [hx0]; rfl, hx, hr, h2, fun p => (hm p).2,
    C133_ride_rolls hx h0 h2 h3.ne' ?_, h1⟩
  rw [hx0]
  simp [ahead]

/-- The hypotheses of the theorems about the energy without torques can be met. -/
example (Ω κ : ℝ) : ∃ (f : String → ℝ) (a b : ℝ) (x : ℝ → Fin 13 → ℝ) (m : Spec.Part → Fin 6 → ℝ)
    (c : Spec.Part → Fin 6 → Fin 3 → ℝ), 0 ∈ Set.Ioo a b ∧ x 0 10 = Ω ∧
    RidesOn 0 0 (slotVector f) (fun _ _ => 0) a b x ∧ (∀ p, MadeOf (m p) (c p) (p.weighs f)) ∧ f "c9" = κ := by
  obtain ⟨f, w, c, h, h1, h2, h3, -, h5⟩ := example_leanBodies κ
  choose m c hm using h5
  have hr : SmoothLaw fun _ _ => (0 : Fin 4 → ℝ) := contDiff_const
  obtain ⟨a, b, h0, x, hx0, hx⟩ := C132_ride_exists (lam := 0) (junk := 0) (p := slotVector f) hr 0 (ahead 0 Ω)
    (C127_steady_riding _ 0 f 0 w _ Ω h).2
  exact ⟨f, a, b, x, m, c, h0, by rw [hx0]; rfl, hx, fun p => (hm p).2, h1⟩

end BP.EL
