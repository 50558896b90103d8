import Mathlib.Analysis.Calculus.Deriv.Prod
import Verif.Props.EvalLinear
import Verif.Props.NewtonEuler
import Verif.Lemmas.Upright
import Verif.Spec.RiderLean

/-!
# C104: the rider lean model is the linearised Newton-Euler equations
-/

set_option linter.unusedSimpArgs false

namespace BP

open Real Matrix Spec EL

/-- The quantities of the formulas. -/
noncomputable def toLP (P : LeanPar) (lam Ω : ℝ) : LP ℝ where
  s := sin lam
  c := cos lam
  u6 := Ω
  c9 := P.c9
  d1 := P.d1
  d2 := P.d2
  d3 := P.d3
  d4 := P.d4
  g := P.g
  ic11 := P.ic11
  ic31 := P.ic31
  ic33 := P.ic33
  id11 := P.id11
  id22 := P.id22
  ie11 := P.ie11
  ie31 := P.ie31
  ie33 := P.ie33
  if11 := P.if11
  if22 := P.if22
  ig11 := P.ig11
  ig31 := P.ig31
  ig33 := P.ig33
  k9 := P.k9
  l1 := P.l1
  l2 := P.l2
  l3 := P.l3
  l4 := P.l4
  l5 := P.l5
  l6 := P.l6
  mc := P.mc
  md := P.md
  me := P.me
  mf := P.mf
  mg := P.mg
  rf := P.rf
  rr := P.rr

theorem frameTensor_eq (P : LeanPar) (lam Ω a11 a22 a31 a33 : ℝ) : frameTensor lam a11 a22 a31 a33 =
    !![(toLP P lam Ω).turnxx a11 a31 a33, 0, (toLP P lam Ω).turnxz a11 a31 a33; 0, a22, 0;
      (toLP P lam Ω).turnxz a11 a31 a33, 0, (toLP P lam Ω).turnzz a11 a31 a33] := by
  ext i j
  fin_cases i <;> fin_cases j <;>
    simp [frameTensor, acrossDir, steerDir, yHat, toLP, LP.turnxx, LP.turnxz, LP.turnzz, Matrix.mul_apply,
      Fin.sum_univ_three] <;> ring

/-- The geometry in coordinates. -/
theorem stands_eq {P : LeanPar} {lam w c : ℝ} (h : P.Stands lam w c) (Ω : ℝ) :
    (toLP P lam Ω).w = w ∧ (toLP P lam Ω).ct = c * cos lam ∧
    P.rf - P.rr + P.d2 * cos lam = (P.d1 + P.d3) * sin lam := by
  have h0 := congrFun h.front 0
  have h2 := congrFun h.front 2
  obtain ⟨τ, ha⟩ := h.axis
  have a0 := congrFun ha 0
  have a2 := congrFun ha 2
  simp [LeanPar.frontCentre, LeanPar.axisPoint, LeanPar.rearCentre, acrossDir, steerDir] at h0 h2 a0 a2
  have hsc := sin_sq_add_cos_sq lam
  simp only [toLP, LP.w, LP.ct]
  refine ⟨by linarith, ?_, by linarith⟩
  linear_combination sin lam * h2 - cos lam * h0 - sin lam * a2 + cos lam * a0 + P.d3 * hsc

theorem rearBodies_eq (P : LeanPar) (lam Ω : ℝ) : P.rearBodies lam Ω =
    [⟨planarBody P.md 0 (-P.rr) P.id11 P.id22 0 P.id11, Ω⟩,
     ⟨planarBody P.mc (toLP P lam Ω).xC (toLP P lam Ω).zC ((toLP P lam Ω).turnxx P.ic11 P.ic31 P.ic33) P.ic22
      ((toLP P lam Ω).turnxz P.ic11 P.ic31 P.ic33) ((toLP P lam Ω).turnzz P.ic11 P.ic31 P.ic33), 0⟩] := by
  have e : P.rearCentre + P.l1 • acrossDir lam + P.l2 • steerDir lam =
      ![(toLP P lam Ω).xC, 0, (toLP P lam Ω).zC] := by
    ext i; fin_cases i <;>
      simp [LeanPar.rearCentre, acrossDir, steerDir, toLP, LP.xC, LP.zC] <;> ring
  rw [LeanPar.rearBodies, LeanPar.rearFrame, e, frameTensor_eq P lam Ω]
  rfl

theorem frontBodies_eq {P : LeanPar} {lam w c : ℝ} (h : P.Stands lam w c) (Ω : ℝ) : P.frontBodies lam Ω =
    [⟨planarBody P.me (toLP P lam Ω).xE (toLP P lam Ω).zE ((toLP P lam Ω).turnxx P.ie11 P.ie31 P.ie33) P.ie22
      ((toLP P lam Ω).turnxz P.ie11 P.ie31 P.ie33) ((toLP P lam Ω).turnzz P.ie11 P.ie31 P.ie33), 0⟩,
     ⟨planarBody P.mf w (-P.rf) P.if11 P.if22 0 P.if11, P.rr * Ω / P.rf⟩] := by
  have e : P.frontCentre lam + P.l3 • acrossDir lam + P.l4 • steerDir lam =
      ![(toLP P lam Ω).xE, 0, (toLP P lam Ω).zE] := by
    have hw := (stands_eq h Ω).1
    rw [h.front, LP.xE, hw]
    ext i; fin_cases i <;>
      simp [acrossDir, steerDir, toLP, LP.zE] <;> ring
  rw [LeanPar.frontBodies, LeanPar.frontFrame, e, frameTensor_eq P lam Ω, h.front]
  rfl

theorem rider_eq (P : LeanPar) (lam Ω : ℝ) : P.rider =
    ⟨planarBody P.mg P.l5 (toLP P lam Ω).zG P.ig11 P.ig22 P.ig31 P.ig33, 0⟩ := by
  have e : P.hinge + ![P.l5, 0, P.l6] = ![P.l5, 0, (toLP P lam Ω).zG] := by
    ext i; fin_cases i <;> simp [LeanPar.hinge, LeanPar.rearCentre, toLP, LP.zG]
    ring
  rw [LeanPar.rider, e]
  rfl

/-- Moment of inertia forces of a body in the symmetry plane about any point of the plane. -/
theorem inertiaMoment_eq' (m x z Ixx Iyy Ixz Izz Ω ox oz a ωx ωz αx αz : ℝ) :
    SpinBody.inertiaMoment ⟨planarBody m x z Ixx Iyy Ixz Izz, Ω⟩ ![ox, 0, oz] a ![ωx, 0, ωz] ![αx, 0, αz] =
      ![-(z - oz) * (m * a) + (Ixx * αx + Ixz * αz) - ωz * (Iyy * Ω), 0,
        (x - ox) * (m * a) + (Ixz * αx + Izz * αz) + ωx * (Iyy * Ω)] := by
  unfold SpinBody.inertiaMoment SpinBody.angularRate
  have : Ω • yHat = ![0, Ω, 0] := by ext i; fin_cases i <;> simp [yHat]
  rw [this]
  simp only [planarBody, planar_mulVec]
  ext i; fin_cases i <;> simp [yHat, crossProduct] <;> ring

/-- At one instant whose accelerations satisfy the differentiated rolling constraints. -/
theorem lean_balance_iff {P : LeanPar} {lam w c : ℝ} (hs : P.Stands lam w c) (hw : w ≠ 0)
    (Ω Tφ Tδ Tθ : ℝ) (s : LeanInstant)
    (hy : s.y'' = P.speed Ω * s.ψ')
    (h1 : w * s.ψ' = (P.speed Ω * s.δ + c * s.δ') * cos lam)
    (h2 : w * s.ψ'' = (P.speed Ω * s.δ' + c * s.δ'') * cos lam) :
    LeanMomentBalance (P.rearBodies lam Ω) (P.frontBodies lam Ω) P.rider P.hinge w c lam P.g P.k9 P.c9
      Tφ Tδ Tθ s ↔
    let L := toLP P lam Ω
    ∀ i, (L.mass i 0 * s.φ'' + L.mass i 1 * s.δ'' + L.mass i 2 * s.θ'') +
      (L.damp i 0 * s.φ' + L.damp i 1 * s.δ' + L.damp i 2 * s.θ') +
      (L.stiff i 0 * s.φ + L.stiff i 1 * s.δ + L.stiff i 2 * s.θ) = ![Tφ, Tδ, Tθ] i := by
  obtain ⟨gw, gc, -⟩ := stands_eq hs Ω
  set κ := cos lam / w with hκd
  have hκ : w * κ = cos lam := by rw [hκd]; field_simp
  have hkap : (toLP P lam Ω).kap = κ := by rw [LP.kap, gw]; rfl
  have hmu : (toLP P lam Ω).mu = c * κ := by rw [LP.mu, gw, gc, hκd]; ring
  have hwc : (toLP P lam Ω).wc = (w + c) * (w * κ) := by
    rw [LP.wc, gw, gc, ← hκ]
    have : (toLP P lam Ω).c = w * κ := hκ.symm
    rw [this]; ring
  have e1 : s.ψ' = κ * (P.speed Ω * s.δ + c * s.δ') := by
    apply mul_left_cancel₀ hw; rw [h1, ← hκ]; ring
  have e2 : s.ψ'' = κ * (P.speed Ω * s.δ' + c * s.δ'') := by
    apply mul_left_cancel₀ hw; rw [h2, ← hκ]; ring
  rw [rearBodies_eq, frontBodies_eq hs, rider_eq P lam Ω]
  have hh : P.hinge = ![0, 0, P.d4 - P.rr] := by
    ext i; fin_cases i <;> simp [LeanPar.hinge, LeanPar.rearCentre]; ring
  have hzG : (toLP P lam Ω).zG = P.d4 + P.l6 - P.rr := rfl
  unfold LeanMomentBalance
  have h0 : (0 : V3) = ![0, 0, 0] := by ext i; fin_cases i <;> rfl
  have hyaw : ∀ F : ℝ, ((![w, 0, 0] : V3) ⨯₃ (F • yHat)) 2 = w * F := by
    intro F; simp [crossProduct, yHat]
  have hlean : ∀ x z f : ℝ, (((![x, 0, z] : V3) - ![0, 0, P.d4 - P.rr]) ⨯₃ (f • yHat)) 0 = -(z - (P.d4 - P.rr)) * f := by
    intro x z f; simp [crossProduct, yHat]; ring
  have hrot : ∀ θ x z : ℝ, rotVel ![θ, 0, 0] ![0, 0, P.d4 - P.rr] ![x, 0, z] 1 = -θ * (z - (P.d4 - P.rr)) := by
    intro θ x z; simp [rotVel, crossProduct]
  rw [h0, hh]
  have hr : ∀ m x z Ixx Iyy Ixz Izz : ℝ, (planarBody m x z Ixx Iyy Ixz Izz).r = ![x, 0, z] := fun _ _ _ _ _ _ _ => rfl
  have hm : ∀ m x z Ixx Iyy Ixz Izz : ℝ, (planarBody m x z Ixx Iyy Ixz Izz).m = m := fun _ _ _ _ _ _ _ => rfl
  simp only [hr, hm, omegaFront_eq, omegaRear, lateralRear, lateralFront, lateralRider, velRear_one, velFront_one,
    List.map_cons, List.map_nil, List.sum_cons, List.sum_nil, List.cons_append, List.nil_append,
    inertiaMoment_eq', steer_moment, hyaw, hlean, hrot]
  rw [show (∀ i : Fin 3, _ = (![Tφ, Tδ, Tθ] : V3) i) ↔ _ from Fin.forall_fin_succ]
  rw [Fin.forall_fin_two]
  simp only [LP.mass, LP.damp, LP.stiff, LP.S, LP.lx, LP.ll, LP.lz, LP.momT, LP.momA, LP.momC, LP.momD,
    LP.momE, LP.momF, LP.momG, Mom.plus, Mom.of, gw, hkap, hmu, hwc, LP.HR, LP.HF, LP.v]
  simp only [steerDir, dotProduct, Fin.sum_univ_three, hzG]
  have f1 : (toLP P lam Ω).ic11 = P.ic11 := rfl
  have f2 : (toLP P lam Ω).ic31 = P.ic31 := rfl
  have f3 : (toLP P lam Ω).ic33 = P.ic33 := rfl
  have f4 : (toLP P lam Ω).ie11 = P.ie11 := rfl
  have f5 : (toLP P lam Ω).ie31 = P.ie31 := rfl
  have f6 : (toLP P lam Ω).ie33 = P.ie33 := rfl
  simp only [f1, f2, f3, f4, f5, f6]
  generalize (toLP P lam Ω).xC = xC
  generalize (toLP P lam Ω).zC = zC
  generalize (toLP P lam Ω).xE = xE
  generalize (toLP P lam Ω).zE = zE
  generalize (toLP P lam Ω).turnxx P.ic11 P.ic31 P.ic33 = ICxx
  generalize (toLP P lam Ω).turnxz P.ic11 P.ic31 P.ic33 = ICxz
  generalize (toLP P lam Ω).turnzz P.ic11 P.ic31 P.ic33 = ICzz
  generalize (toLP P lam Ω).turnxx P.ie11 P.ie31 P.ie33 = IExx
  generalize (toLP P lam Ω).turnxz P.ie11 P.ie31 P.ie33 = IExz
  generalize (toLP P lam Ω).turnzz P.ie11 P.ie31 P.ie33 = IEzz
  simp only [toLP, hy, e2, e1, ← hκ, LeanPar.speed]
  simp
  rw [mul_div_assoc P.if22 (P.rr * Ω) P.rf]
  generalize P.if22 * (P.rr * Ω / P.rf) = HF
  constructor
  · rintro ⟨F, N, hN, hroll, hyw, hsteer, hlean⟩
    refine ⟨?_, ?_, ?_⟩
    · linear_combination hroll + (s.ψ - s.δ * κ * c) * hN
    · linear_combination hsteer + c * κ * hyw - (s.φ + s.δ * sin lam) * (c * κ) * hN
    · linear_combination hlean
  · rintro ⟨r1, r2, r3⟩
    obtain ⟨N, hN⟩ : ∃ N, w * N + (xC * (P.mc * P.g) + (xE * (P.me * P.g) + (w * (P.mf * P.g) + P.l5 * (P.mg * P.g)))) = 0 :=
      ⟨-(xC * (P.mc * P.g) + (xE * (P.me * P.g) + (w * (P.mf * P.g) + P.l5 * (P.mg * P.g)))) / w, by
        field_simp; ring⟩
    have hex : ∀ a : ℝ, ∃ F, a = w * F := fun a => ⟨a / w, by field_simp⟩
    obtain ⟨F, hF⟩ := hex _
    refine ⟨F, N, hN, ?_, hF, ?_, ?_⟩
    · linear_combination r1 - (s.ψ - s.δ * κ * c) * hN
    · linear_combination r2 - c * κ * hF + (s.φ + s.δ * sin lam) * (c * κ) * hN
    · linear_combination r3

/-- The cells hold the parameters. -/
theorem memLP_eq (m : ℕ → ℝ) (f : String → ℝ) (lam Ω : ℝ) (hl : m 5084 = lam) (hu : m 5041 = Ω)
    (hp : ∀ k : Fin 36, m (5048 + k) = f (evalLinearSlots.getD k "")) :
    memLP m = toLP (LeanPar.of f) lam Ω := by
  have h0 : m 5048 = f "c9" := hp 0
  have h1 : m 5049 = f "d1" := hp 1
  have h2 : m 5050 = f "d2" := hp 2
  have h3 : m 5051 = f "d3" := hp 3
  have h4 : m 5052 = f "d4" := hp 4
  have h5 : m 5053 = f "g" := hp 5
  have h6 : m 5054 = f "ic11" := hp 6
  have h8 : m 5056 = f "ic31" := hp 8
  have h9 : m 5057 = f "ic33" := hp 9
  have h10 : m 5058 = f "id11" := hp 10
  have h11 : m 5059 = f "id22" := hp 11
  have h12 : m 5060 = f "ie11" := hp 12
  have h14 : m 5062 = f "ie31" := hp 14
  have h15 : m 5063 = f "ie33" := hp 15
  have h16 : m 5064 = f "if11" := hp 16
  have h17 : m 5065 = f "if22" := hp 17
  have h18 : m 5066 = f "ig11" := hp 18
  have h20 : m 5068 = f "ig31" := hp 20
  have h21 : m 5069 = f "ig33" := hp 21
  have h22 : m 5070 = f "k9" := hp 22
  have h23 : m 5071 = f "l1" := hp 23
  have h24 : m 5072 = f "l2" := hp 24
  have h25 : m 5073 = f "l3" := hp 25
  have h26 : m 5074 = f "l4" := hp 26
  have h27 : m 5075 = f "l5" := hp 27
  have h28 : m 5076 = f "l6" := hp 28
  have h29 : m 5077 = f "mc" := hp 29
  have h30 : m 5078 = f "md" := hp 30
  have h31 : m 5079 = f "me" := hp 31
  have h32 : m 5080 = f "mf" := hp 32
  have h33 : m 5081 = f "mg" := hp 33
  have h34 : m 5082 = f "rf" := hp 34
  have h35 : m 5083 = f "rr" := hp 35
  simp only [memLP, toLP, LeanPar.of, hl, hu, h0, h1, h2, h3, h4, h5, h6, h8, h9, h10, h11, h12, h14, h15, h16,
    h17, h18, h20, h21, h22, h23, h24, h25, h26, h27, h28, h29, h30, h31, h32, h33, h34, h35]

/-- The parameters as the argument of `eval_linear`. -/
def Spec.slotVector (f : String → ℝ) (k : Fin 36) : ℝ := f (evalLinearSlots.getD k "")

/-- The cells of a bicycle that stands upright. -/
theorem upright_cells (pitch : ℝ → ℝ → ℝ → ℝ → ℝ → ℝ → ℝ → ℝ) (junk : ℕ → ℝ) (f : String → ℝ)
    (lam w c Ω : ℝ) (hpitch : pitch 0 0 (f "rf") (f "rr") (f "d1") (f "d2") (f "d3") = lam)
    (hs : (LeanPar.of f).Stands lam w c) (hw : w ≠ 0) (hrf : f "rf" ≠ 0) (m : ℕ → ℝ)
    (hm : m = run real body (start pitch junk ![0, 0, 0, 0, lam, 0, 0, 0, 0] ![0, Ω, 0, 0] 0 (slotVector f))) :
    (∀ s ∈ body, m s.1 = s.2.val real m) ∧ Upright m ∧ memLP m = toLP (LeanPar.of f) lam Ω := by
  have heq : ∀ s ∈ body, m s.1 = s.2.val real m := by
    intro s hs; rw [hm]; exact run_equation real body inputs assigned body_defined _ s hs
  have hkeep : ∀ l, 5033 ≤ l → l < 5085 → m l = start pitch junk ![0, 0, 0, 0, lam, 0, 0, 0, 0] ![0, Ω, 0, 0] 0
      (slotVector f) l := by
    intro l h1 h2
    rw [hm]; exact run_keep real body inputs assigned body_defined _ l ((inputs_iff l).mpr ⟨h1, h2⟩)
  have hp : ∀ k : Fin 36, m (5048 + k) = f (evalLinearSlots.getD k "") := by
    intro k; rw [hkeep _ (by omega) (by omega), start_p]; rfl
  have hq : ∀ k : Fin 9, 2 ≤ k.1 → m (5031 + k) = (![0, 0, 0, 0, lam, 0, 0, 0, 0] : Fin 9 → ℝ) k := by
    intro k hk; rw [hkeep _ (by omega) (by omega), start_q]
  have hu : ∀ k : Fin 4, m (5040 + k) = (![0, Ω, 0, 0] : Fin 4 → ℝ) k := by
    intro k; rw [hkeep _ (by omega) (by omega), start_u]
  have hr : ∀ k : Fin 4, m (5044 + k) = 0 := by
    intro k; rw [hkeep _ (by omega) (by omega), start_r]; rfl
  have hl : m 5084 = lam := by
    rw [hkeep _ (by omega) (by omega), start_lam]; exact hpitch
  have hL : memLP m = toLP (LeanPar.of f) lam Ω := memLP_eq m f lam Ω hl (hu 1) hp
  have g1 : m 5082 = f "rf" := hp 34
  have g2 : m 5083 = f "rr" := hp 35
  have g3 : m 5049 = f "d1" := hp 1
  have g4 : m 5050 = f "d2" := hp 2
  have g5 : m 5051 = f "d3" := hp 3
  obtain ⟨e1, e2, e3⟩ := stands_eq hs Ω
  have hup : Upright m := by
    refine ⟨?_, ?_, ?_, ?_, ?_⟩
    · rw [hl]; exact hq 4 (by decide)
    · intro k hk h2
      have hk1 := hk.1
      rcases lt_or_ge k.1 7 with h | h
      · have := hq ⟨k.1 + 2, by omega⟩ (by simp)
        have e : 5031 + (k.1 + 2) = 5033 + k.1 := by omega
        rw [show (5031 + (⟨k.1 + 2, by omega⟩ : Fin 9).1) = 5033 + k.1 from e] at this
        rw [this]
        obtain ⟨k, hk3⟩ := k
        have h4 : k ≠ 2 := fun h => h2 (Fin.ext h)
        have h5 : k < 7 := h
        interval_cases k <;> first | rfl | exact absurd rfl h4
      · rcases lt_or_ge k.1 11 with h' | h'
        · have := hu ⟨k.1 - 7, by omega⟩
          have e : 5040 + (k.1 - 7) = 5033 + k.1 := by omega
          rw [show (5040 + (⟨k.1 - 7, by omega⟩ : Fin 4).1) = 5033 + k.1 from e] at this
          rw [this]
          obtain ⟨k, hk3⟩ := k
          have h4 : k ≠ 8 := fun h => hk.2 (Fin.ext h)
          have h5 : k < 11 := h'
          have h6 : 7 ≤ k := h
          interval_cases k <;> first | rfl | exact absurd rfl h4
        · have := hr ⟨k.1 - 11, by omega⟩
          have e : 5044 + (k.1 - 11) = 5033 + k.1 := by omega
          rw [show (5044 + (⟨k.1 - 11, by omega⟩ : Fin 4).1) = 5033 + k.1 from e] at this
          exact this
    · rw [hl, g1, g2, g3, g4, g5]; exact e3
    · rw [hL, e1]; exact hw
    · rw [g1]; exact hrf
  exact ⟨heq, hup, hL⟩

/-- The matrices of `eval_linear` for upright riding, from the formulas. -/
theorem upright_matrices_eq (pitch : ℝ → ℝ → ℝ → ℝ → ℝ → ℝ → ℝ → ℝ) (junk : ℕ → ℝ) (f : String → ℝ)
    (lam w c Ω : ℝ) (hpitch : pitch 0 0 (f "rf") (f "rr") (f "d1") (f "d2") (f "d3") = lam)
    (hs : (LeanPar.of f).Stands lam w c) (hw : w ≠ 0) (hrf : f "rf" ≠ 0)
    (hJ : (toLP (LeanPar.of f) lam Ω).drive ≠ 0) (hdet : det3 (toLP (LeanPar.of f) lam Ω).mass ≠ 0) :
    let R := evalLinear real pitch junk ![0, 0, 0, 0, lam, 0, 0, 0, 0] ![0, Ω, 0, 0] 0 (slotVector f)
    let L := toLP (LeanPar.of f) lam Ω
    let lhs := fun (i : Fin 3) (X : Fin 13 → ℝ) => L.mass i 0 * X 9 + L.mass i 1 * X 11 + L.mass i 2 * X 12
    (∀ i, lhs i (fun r => R.A r 3) = -L.stiff i 0 ∧ lhs i (fun r => R.A r 6) = -L.stiff i 1 ∧
      lhs i (fun r => R.A r 8) = -L.stiff i 2) ∧
    (∀ i, lhs i (fun r => R.A r 9) = -L.damp i 0 ∧ lhs i (fun r => R.A r 11) = -L.damp i 1 ∧
      lhs i (fun r => R.A r 12) = -L.damp i 2) ∧
    (∀ i, lhs i (fun r => R.B r 0) = (if i = 0 then 1 else 0) ∧ lhs i (fun r => R.B r 2) = (if i = 1 then 1 else 0) ∧
      lhs i (fun r => R.B r 3) = (if i = 2 then 1 else 0)) ∧
    L.drive * R.B 10 1 = 1 ∧
    (R.A 0 10 = -L.rr ∧ R.A 1 2 = L.v ∧ R.A 2 6 = L.v * L.kap ∧ R.A 2 11 = L.mu ∧ R.A 7 10 = L.rr / L.rf) ∧
    (∀ i j : Fin 13, aPattern i j = false → R.A i j = 0) ∧
    (∀ (i : Fin 13) (j : Fin 4), bPattern i j = false → R.B i j = 0) ∧
    (R.A 3 9 = 1 ∧ R.A 5 10 = 1 ∧ R.A 6 11 = 1 ∧ R.A 8 12 = 1) := by
  intro R L lhs
  obtain ⟨m, hm⟩ : ∃ m, m = run real body (start pitch junk ![0, 0, 0, 0, lam, 0, 0, 0, 0] ![0, Ω, 0, 0] 0
    (slotVector f)) := ⟨_, rfl⟩
  have hA : ∀ i j, R.A i j = m (5200 + 13 * i + j) := by
    intro i j; rw [hm]; exact evalLinear_A ..
  have hB : ∀ i j, R.B i j = m (5400 + 4 * i + j) := by
    intro i j; rw [hm]; exact evalLinear_B ..
  obtain ⟨heq, hup, hL⟩ := upright_cells pitch junk f lam w c Ω hpitch hs hw hrf m hm
  have key := upright_system hup heq (by rw [hL]; exact hJ) (by rw [hL]; exact hdet)
  rw [hL] at key
  simp only [lhs, hA, hB]
  exact key

theorem planarBody_energy (m x z Ixx Iyy Ixz Izz vy ωx ωz : ℝ) (v : V3) (h0 : v 0 = 0) (h1 : v 1 = vy)
    (h2 : v 2 = 0) : (planarBody m x z Ixx Iyy Ixz Izz).energy v ![ωx, 0, ωz] =
      1 / 2 * m * vy ^ 2 + 1 / 2 * (Ixx * ωx ^ 2 + 2 * Ixz * ωx * ωz + Izz * ωz ^ 2) := by
  simp only [Body.energy, planarBody, planar_mulVec, dotProduct, Fin.sum_univ_three, h0, h1, h2]
  simp; ring

theorem velRear_planar (a b x z : ℝ) : velRear a b ![x, 0, z] 0 = 0 ∧ velRear a b ![x, 0, z] 2 = 0 := by
  simp [velRear, rotVel, omegaRear, crossProduct]

theorem velFront_planar (w c lam a b d x z : ℝ) :
    velFront w c lam a b d ![x, 0, z] 0 = 0 ∧ velFront w c lam a b d ![x, 0, z] 2 = 0 := by
  simp [velFront, velRear, rotVel, omegaRear, steerDir, crossProduct]

/-- The kinetic energy in coordinates. -/
theorem lean_energy_eq {P : LeanPar} {lam w c : ℝ} (hs : P.Stands lam w c) (hw : w ≠ 0)
    (Ω φ' ψ' δ' θ' : ℝ) (hψ : w * ψ' = c * cos lam * δ') :
    let M := (toLP P lam Ω).mass
    P.energy lam w c φ' ψ' δ' θ' = 1 / 2 * (φ' * (M 0 0 * φ' + M 0 1 * δ' + M 0 2 * θ') +
      δ' * (M 1 0 * φ' + M 1 1 * δ' + M 1 2 * θ') + θ' * (M 2 0 * φ' + M 2 1 * δ' + M 2 2 * θ')) := by
  intro M
  obtain ⟨gw, gc, -⟩ := stands_eq hs Ω
  set κ := cos lam / w with hκd
  have hκ : w * κ = cos lam := by rw [hκd]; field_simp
  have hmu : (toLP P lam Ω).mu = c * κ := by rw [LP.mu, gw, gc, hκd]; ring
  have hwc : (toLP P lam Ω).wc = (w + c) * (w * κ) := by
    rw [LP.wc, gw, gc, ← hκ]
    have : (toLP P lam Ω).c = w * κ := hκ.symm
    rw [this]; ring
  have e1 : ψ' = κ * (c * δ') := by
    apply mul_left_cancel₀ hw; rw [hψ, ← hκ]; ring
  have hr := rearBodies_eq P lam 0
  have hf := frontBodies_eq hs 0
  have hg := rider_eq P lam 0
  have hh : P.hinge = ![0, 0, P.d4 - P.rr] := by
    ext i; fin_cases i <;> simp [LeanPar.hinge, LeanPar.rearCentre]; ring
  have hzG : (toLP P lam Ω).zG = P.d4 + P.l6 - P.rr := rfl
  have hzG' : (toLP P lam 0).zG = P.d4 + P.l6 - P.rr := rfl
  have hrb : ∀ m x z Ixx Iyy Ixz Izz : ℝ, (planarBody m x z Ixx Iyy Ixz Izz).r = ![x, 0, z] := fun _ _ _ _ _ _ _ => rfl
  have er : ∀ m x z Ixx Iyy Ixz Izz : ℝ, (planarBody m x z Ixx Iyy Ixz Izz).energy (velRear φ' ψ' ![x, 0, z])
      ![φ', 0, ψ'] = 1 / 2 * m * (ψ' * x - φ' * z) ^ 2 + 1 / 2 * (Ixx * φ' ^ 2 + 2 * Ixz * φ' * ψ' + Izz * ψ' ^ 2) :=
    fun m x z _ _ _ _ => planarBody_energy _ _ _ _ _ _ _ _ _ _ _ (velRear_planar ..).1 (velRear_one ..) (velRear_planar ..).2
  have ef : ∀ m x z Ixx Iyy Ixz Izz : ℝ, (planarBody m x z Ixx Iyy Ixz Izz).energy
      (velFront w c lam φ' ψ' δ' ![x, 0, z]) ![φ' + δ' * sin lam, 0, ψ' + δ' * cos lam] =
      1 / 2 * m * (ψ' * x - φ' * z + δ' * (cos lam * (x - (w + c)) - sin lam * z)) ^ 2 +
      1 / 2 * (Ixx * (φ' + δ' * sin lam) ^ 2 + 2 * Ixz * (φ' + δ' * sin lam) * (ψ' + δ' * cos lam) +
        Izz * (ψ' + δ' * cos lam) ^ 2) :=
    fun m x z _ _ _ _ => planarBody_energy _ _ _ _ _ _ _ _ _ _ _ (velFront_planar ..).1 (velFront_one ..) (velFront_planar ..).2
  have eg : (planarBody P.mg P.l5 (P.d4 + P.l6 - P.rr) P.ig11 P.ig22 P.ig31 P.ig33).energy
      (velRear φ' ψ' ![P.l5, 0, P.d4 + P.l6 - P.rr] + rotVel ![θ', 0, 0] ![0, 0, P.d4 - P.rr]
        ![P.l5, 0, P.d4 + P.l6 - P.rr]) ![φ' + θ', 0, ψ'] =
      1 / 2 * P.mg * (ψ' * P.l5 - φ' * (P.d4 + P.l6 - P.rr) - θ' * P.l6) ^ 2 +
      1 / 2 * (P.ig11 * (φ' + θ') ^ 2 + 2 * P.ig31 * (φ' + θ') * ψ' + P.ig33 * ψ' ^ 2) := by
    refine planarBody_energy _ _ _ _ _ _ _ _ _ _ _ ?_ ?_ ?_
    · simp [velRear, rotVel, omegaRear, crossProduct]
    · simp [velRear, rotVel, omegaRear, crossProduct]; ring
    · simp [velRear, rotVel, omegaRear, crossProduct]
  unfold LeanPar.energy
  rw [hr, hf, hg, hh]
  simp only [List.map_cons, List.map_nil, List.sum_cons, List.sum_nil, hrb, omegaRear, omegaFront_eq, er, ef, hzG', eg]
  have f1 : (toLP P lam Ω).ic11 = P.ic11 := rfl
  have f2 : (toLP P lam Ω).ic31 = P.ic31 := rfl
  have f3 : (toLP P lam Ω).ic33 = P.ic33 := rfl
  have f4 : (toLP P lam Ω).ie11 = P.ie11 := rfl
  have f5 : (toLP P lam Ω).ie31 = P.ie31 := rfl
  have f6 : (toLP P lam Ω).ie33 = P.ie33 := rfl
  have x1 : (toLP P lam 0).xC = (toLP P lam Ω).xC := rfl
  have x2 : (toLP P lam 0).zC = (toLP P lam Ω).zC := rfl
  have x3 : (toLP P lam 0).xE = (toLP P lam Ω).xE := rfl
  have x4 : (toLP P lam 0).zE = (toLP P lam Ω).zE := rfl
  have x5 : (toLP P lam 0).turnxx = (toLP P lam Ω).turnxx := rfl
  have x6 : (toLP P lam 0).turnxz = (toLP P lam Ω).turnxz := rfl
  have x7 : (toLP P lam 0).turnzz = (toLP P lam Ω).turnzz := rfl
  simp only [M, LP.mass, LP.S, LP.lx, LP.ll, LP.lz, LP.momT, LP.momA, LP.momC, LP.momD,
    LP.momE, LP.momF, LP.momG, Mom.plus, Mom.of, gw, hmu, hwc, hzG, f1, f2, f3, f4, f5, f6, x1, x2, x3, x4, x5, x6, x7]
  generalize (toLP P lam Ω).xC = xC
  generalize (toLP P lam Ω).zC = zC
  generalize (toLP P lam Ω).xE = xE
  generalize (toLP P lam Ω).zE = zE
  generalize (toLP P lam Ω).turnxx P.ic11 P.ic31 P.ic33 = ICxx
  generalize (toLP P lam Ω).turnxz P.ic11 P.ic31 P.ic33 = ICxz
  generalize (toLP P lam Ω).turnzz P.ic11 P.ic31 P.ic33 = ICzz
  generalize (toLP P lam Ω).turnxx P.ie11 P.ie31 P.ie33 = IExx
  generalize (toLP P lam Ω).turnxz P.ie11 P.ie31 P.ie33 = IExz
  generalize (toLP P lam Ω).turnzz P.ie11 P.ie31 P.ie33 = IEzz
  simp only [toLP, e1, ← hκ]
  ring

/-- The mass matrix is not singular. -/
theorem massive_det {P : LeanPar} {lam w c : ℝ} (hs : P.Stands lam w c) (hw : w ≠ 0) (hM : P.Massive lam w c)
    (Ω : ℝ) : det3 (toLP P lam Ω).mass ≠ 0 := by
  intro h
  have hd : (Matrix.of (toLP P lam Ω).mass).det = 0 := by
    rw [← h, Matrix.det_fin_three]
    simp only [Matrix.of_apply, det3]; ring
  obtain ⟨q, hq, h0⟩ := Matrix.exists_mulVec_eq_zero_iff.mpr hd
  have e : ∀ i, (toLP P lam Ω).mass i 0 * q 0 + (toLP P lam Ω).mass i 1 * q 1 + (toLP P lam Ω).mass i 2 * q 2 = 0 := by
    intro i
    have := congrFun h0 i
    simpa [Matrix.mulVec, dotProduct, Fin.sum_univ_three] using this
  have hne : q 0 ≠ 0 ∨ q 1 ≠ 0 ∨ q 2 ≠ 0 := by
    by_contra hc
    push Not at hc
    exact hq (by ext i; fin_cases i; exacts [hc.1, hc.2.1, hc.2.2])
  have hψ : w * (c * cos lam * q 1 / w) = c * cos lam * q 1 := by field_simp
  have := hM (q 0) _ (q 1) (q 2) hψ hne
  rw [lean_energy_eq hs hw Ω _ _ _ _ hψ, e 0, e 1, e 2] at this
  simp at this

theorem sum13 (f : Fin 13 → ℝ) : ∑ i, f i =
    f 0 + f 1 + f 2 + f 3 + f 4 + f 5 + f 6 + f 7 + f 8 + f 9 + f 10 + f 11 + f 12 := by
  simp [Fin.sum_univ_succ]; ring

theorem drive_eq (P : LeanPar) (lam Ω : ℝ) : (toLP P lam Ω).drive = P.driveInertia := by
  simp only [LP.drive, LeanPar.driveInertia, toLP]; ring

/-- What a right hand side of the equations of motion has to satisfy. -/
def LeanRhs (P : LeanPar) (lam w c Ω : ℝ) (x : Fin 13 → ℝ) (T : Fin 4 → ℝ) (y : Fin 13 → ℝ) : Prop :=
    let L := toLP P lam Ω
    y 0 = P.speed (x 10) ∧ y 1 = P.speed Ω * x 2 ∧
    w * y 2 = (P.speed Ω * x 6 + c * x 11) * cos lam ∧
    y 3 = x 9 ∧ y 4 = 0 ∧ y 5 = x 10 ∧ y 6 = x 11 ∧ y 7 = -(P.speed (x 10)) / P.rf ∧ y 8 = x 12 ∧
    P.driveInertia * y 10 = T 1 ∧
    ∀ i, (L.mass i 0 * y 9 + L.mass i 1 * y 11 + L.mass i 2 * y 12) +
      (L.damp i 0 * x 9 + L.damp i 1 * x 11 + L.damp i 2 * x 12) +
      (L.stiff i 0 * x 3 + L.stiff i 1 * x 6 + L.stiff i 2 * x 8) = ![T 0, T 2, T 3] i

/-- The right hand side of the linear system, component by component. -/
theorem upright_rhs (pitch : ℝ → ℝ → ℝ → ℝ → ℝ → ℝ → ℝ → ℝ) (junk : ℕ → ℝ) (f : String → ℝ)
    (lam w c Ω : ℝ) (hpitch : pitch 0 0 (f "rf") (f "rr") (f "d1") (f "d2") (f "d3") = lam)
    (hs : (LeanPar.of f).Stands lam w c) (hw : w ≠ 0) (hrf : f "rf" ≠ 0)
    (hJ : (LeanPar.of f).driveInertia ≠ 0) (hM : (LeanPar.of f).Massive lam w c)
    (x : Fin 13 → ℝ) (T : Fin 4 → ℝ) :
    let R := evalLinear real pitch junk ![0, 0, 0, 0, lam, 0, 0, 0, 0] ![0, Ω, 0, 0] 0 (slotVector f)
    LeanRhs (LeanPar.of f) lam w c Ω x T (R.A *ᵥ x + R.B *ᵥ T) := by
  intro R
  let P := LeanPar.of f
  let L := toLP P lam Ω
  let y := R.A *ᵥ x + R.B *ᵥ T
  change LeanRhs P lam w c Ω x T y
  obtain ⟨hk, hc, hb, hd, ⟨a1, a2, a3, a4, a5⟩, hzA, hzB, o1, o2, o3, o4⟩ :=
    upright_matrices_eq pitch junk f lam w c Ω hpitch hs hw hrf (by rw [drive_eq]; exact hJ)
      (massive_det hs hw hM Ω)
  have hy0 : ∀ i, y i = (∑ j, R.A i j * x j) + ∑ j, R.B i j * T j := fun i => rfl
  have hy := hy0
  simp only [sum13, Fin.sum_univ_four] at hy
  obtain ⟨g1, g2, -⟩ := stands_eq hs Ω
  have zA : ∀ i j : Fin 13, aPattern i j = false → R.A i j = 0 := hzA
  have zB : ∀ (i : Fin 13) (j : Fin 4), bPattern i j = false → R.B i j = 0 := hzB
  have a1' : R.A 0 10 = -P.rr := a1
  have a2' : R.A 1 2 = P.speed Ω := by rw [show R.A 1 2 = L.v from a2]; simp only [L, LP.v, toLP, LeanPar.speed]; ring
  have a3' : w * R.A 2 6 = P.speed Ω * cos lam := by
    rw [show R.A 2 6 = L.v * L.kap from a3, LP.kap, g1]
    simp only [L, LP.v, toLP, LeanPar.speed]; field_simp
  have a4' : w * R.A 2 11 = c * cos lam := by
    rw [show R.A 2 11 = L.mu from a4, LP.mu, g1, g2]; field_simp
  have a5' : R.A 7 10 = P.rr / P.rf := a5
  have o1' : R.A 3 9 = 1 := o1
  have o2' : R.A 5 10 = 1 := o2
  have o3' : R.A 6 11 = 1 := o3
  have o4' : R.A 8 12 = 1 := o4
  have hd' : P.driveInertia * R.B 10 1 = 1 := by rw [← drive_eq P lam Ω]; exact hd
  have row : ∀ i : Fin 13, (∀ j : Fin 4, bPattern i j = false) → R.B i 0 * T 0 + R.B i 1 * T 1 + R.B i 2 * T 2 +
      R.B i 3 * T 3 = 0 := by
    intro i h
    rw [zB i 0 (h 0), zB i 1 (h 1), zB i 2 (h 2), zB i 3 (h 3)]; ring
  have single : ∀ i k : Fin 13, (∀ j : Fin 13, j ≠ k → aPattern i j = false) →
      (∀ j : Fin 4, bPattern i j = false) → y i = R.A i k * x k := by
    intro i k h h'
    rw [hy0, Finset.sum_eq_single k (fun j _ hj => by rw [zA i j (h j hj), zero_mul]) (by simp),
      Finset.sum_eq_zero (fun j _ => by rw [zB i j (h' j), zero_mul]), add_zero]
  refine ⟨?_, ?_, ?_, ?_, ?_, ?_, ?_, ?_, ?_, ?_, ?_⟩
  · rw [single 0 10 (by decide) (by decide), a1', LeanPar.speed]
  · rw [single 1 2 (by decide) (by decide), a2']
  · rw [hy 2, row 2 (by decide), zA 2 0 (by decide), zA 2 1 (by decide), zA 2 2 (by decide), zA 2 3 (by decide),
      zA 2 4 (by decide), zA 2 5 (by decide), zA 2 7 (by decide), zA 2 8 (by decide), zA 2 9 (by decide),
      zA 2 10 (by decide), zA 2 12 (by decide)]
    linear_combination x 6 * a3' + x 11 * a4'
  · rw [single 3 9 (by decide) (by decide), o1', one_mul]
  · rw [single 4 0 (by decide) (by decide), zA 4 0 (by decide), zero_mul]
  · rw [single 5 10 (by decide) (by decide), o2', one_mul]
  · rw [single 6 11 (by decide) (by decide), o3', one_mul]
  · rw [single 7 10 (by decide) (by decide), a5', LeanPar.speed]; ring
  · rw [single 8 12 (by decide) (by decide), o4', one_mul]
  · rw [hy 10, zB 10 0 (by decide), zB 10 2 (by decide), zB 10 3 (by decide)]
    have z : ∀ j, R.A 10 j = 0 := fun j => zA 10 j (by revert j; decide)
    simp only [z]
    linear_combination T 1 * hd'
  · have acc : ∀ i : Fin 13, i = 9 ∨ i = 11 ∨ i = 12 →
        y i = R.A i 3 * x 3 + R.A i 6 * x 6 + R.A i 8 * x 8 + R.A i 9 * x 9 + R.A i 11 * x 11 +
          R.A i 12 * x 12 + R.B i 0 * T 0 + R.B i 2 * T 2 + R.B i 3 * T 3 := by
      intro i h
      have p : (∀ j : Fin 13, j ∈ [(0 : Fin 13), 1, 2, 4, 5, 7, 10] → aPattern i j = false) ∧
          bPattern i ((1 : Fin 4) : ℕ) = false := by revert i; decide
      have z' : R.B i 1 = 0 := zB i 1 p.2
      have z : ∀ j : Fin 13, j ∈ [(0 : Fin 13), 1, 2, 4, 5, 7, 10] → R.A i j = 0 := fun j hj => zA i j (p.1 j hj)
      rw [hy i, z 0 (by decide), z 1 (by decide), z 2 (by decide), z 4 (by decide), z 5 (by decide),
        z 7 (by decide), z 10 (by decide), z']
      ring
    intro i
    rw [acc 9 (by decide), acc 11 (by decide), acc 12 (by decide)]
    obtain ⟨k1, k2, k3⟩ := hk i
    obtain ⟨c1, c2, c3⟩ := hc i
    obtain ⟨b1, b2, b3⟩ := hb i
    beta_reduce at k1 k2 k3 c1 c2 c3 b1 b2 b3
    have e : (![T 0, T 2, T 3] : Fin 3 → ℝ) i = (if i = 0 then 1 else 0) * T 0 + (if i = 1 then 1 else 0) * T 2 +
        (if i = 2 then 1 else 0) * T 3 := by
      fin_cases i <;> simp
    rw [e]
    linear_combination x 3 * k1 + x 6 * k2 + x 8 * k3 + x 9 * c1 + x 11 * c2 + x 12 * c3 + T 0 * b1 + T 2 * b2 + T 3 * b3

theorem cramer3 {M : Fin 3 → Fin 3 → ℝ} (hdet : det3 M ≠ 0) {a b c a' b' c' : ℝ}
    (h : ∀ i, (M i 0 * a + M i 1 * b + M i 2 * c) - (M i 0 * a' + M i 1 * b' + M i 2 * c') = 0) :
    a = a' ∧ b = b' ∧ c = c' := by
  have h0 := h 0
  have h1 := h 1
  have h2 := h 2
  refine ⟨?_, ?_, ?_⟩ <;> refine sub_eq_zero.1 ((mul_eq_zero.1 (?_ : det3 M * _ = 0)).resolve_left hdet)
  · rw [det3]
    linear_combination (M 1 1 * M 2 2 - M 1 2 * M 2 1) * h0 - (M 0 1 * M 2 2 - M 0 2 * M 2 1) * h1 +
      (M 0 1 * M 1 2 - M 0 2 * M 1 1) * h2
  · rw [det3]
    linear_combination -(M 1 0 * M 2 2 - M 1 2 * M 2 0) * h0 + (M 0 0 * M 2 2 - M 0 2 * M 2 0) * h1 -
      (M 0 0 * M 1 2 - M 0 2 * M 1 0) * h2
  · rw [det3]
    linear_combination (M 1 0 * M 2 1 - M 1 1 * M 2 0) * h0 - (M 0 0 * M 2 1 - M 0 1 * M 2 0) * h1 +
      (M 0 0 * M 1 1 - M 0 1 * M 1 0) * h2

theorem motion_of_rhs {P : LeanPar} {lam w c : ℝ} (hs : P.Stands lam w c) (hw : w ≠ 0)
    (hJ : P.driveInertia ≠ 0) (hM : P.Massive lam w c) (Ω : ℝ)
    (x y : ℝ → Fin 13 → ℝ) (T : ℝ → Fin 4 → ℝ) (H : ∀ t, LeanRhs P lam w c Ω (x t) (T t) (y t)) :
    (∀ t, HasDerivAt x (y t) t) ↔ LeanMotion P lam w c Ω x T := by
  have key := fun (s : LeanInstant) (Tφ Tδ Tθ : ℝ) hy h1 h2 => lean_balance_iff hs hw Ω Tφ Tδ Tθ s hy h1 h2
  simp only [hasDerivAt_pi]
  constructor
  · intro hx
    have d : ∀ t, HasDerivAt (fun s => y s 2) ((P.speed Ω * x t 11 + c * y t 11) * cos lam / w) t := by
      intro t
      have e : (fun s => y s 2) = fun s => (P.speed Ω * x s 6 + c * x s 11) * cos lam / w := by
        funext s
        obtain ⟨-, -, h, -⟩ := H s
        field_simp
        linear_combination h
      rw [e]
      have h := hx t 6
      obtain ⟨-, -, -, -, -, -, h6, -⟩ := H t
      rw [h6] at h
      exact ((h.const_mul _).add ((hx t 11).const_mul c)).mul_const (cos lam) |>.div_const w
    refine ⟨fun t => ?_, fun t => ?_, fun t => ?_, fun t => ?_, ⟨fun t => ?_, fun t => ?_⟩, fun t => ?_,
      ⟨fun t => y t 2, fun t => (P.speed Ω * x t 11 + c * y t 11) * cos lam / w, fun t => y t 9, fun t => y t 11,
        fun t => y t 12, fun t => hx t 2, d, fun t => hx t 9, fun t => hx t 11, fun t => hx t 12, fun t => ?_⟩⟩
    all_goals obtain ⟨h0, h1, h2, h3, h4, h5, h6, h7, h8, h9, h10⟩ := H t
    · rw [← h0]; exact hx t 0
    · rw [← h7]; exact hx t 7
    · rw [← h4]; exact hx t 4
    · rw [← h3, ← h5, ← h6, ← h8]; exact ⟨hx t 3, hx t 5, hx t 6, hx t 8⟩
    · rw [← h1]; exact hx t 1
    · have e : (fun s => lateralFront w c lam (x s 1) (x s 3) (x s 2) (x s 6) ![w, 0, 0]) =
          fun s => x s 1 + (x s 2 * w + x s 6 * (cos lam * (-c))) := by
        funext s
        rw [lateralFront, velFront_one]; ring
      rw [e, omegaFront_eq]
      refine ((hx t 1).add (((hx t 2).mul_const w).add ((hx t 6).mul_const (cos lam * (-c))))).congr_deriv ?_
      rw [h1, h6]
      simp only [Matrix.cons_val]
      linear_combination h2
    · rw [← h9]; exact (hx t 10).const_mul _
    · refine (key _ _ _ _ rfl h2 ?_).2 ?_
      · field_simp
      · exact h10
  · intro hx t
    obtain ⟨ψ', ψ'', φ'', δ'', θ'', d1, d2, d3, d4, d5, hb⟩ := hx.balance
    have r1 := rolling_rates _ _ _ _ _ _ _ _ ψ' (fun t => x t 11) hx.rolls d1 (fun t => (hx.rates t).2.2.1)
    have r2 : w * ψ'' t = (P.speed Ω * x t 11 + c * δ'' t) * cos lam := by
      have e : (fun s => w * ψ' s) = fun s => (P.speed Ω * x s 6 + c * x s 11) * cos lam := by
        funext s; exact r1 s
      have h := (d2 t).const_mul w
      rw [e] at h
      exact h.unique (((((hx.rates t).2.2.1).const_mul _).add ((d4 t).const_mul c)).mul_const (cos lam))
    have b := (key _ _ _ _ rfl (r1 t) r2).1 (hb t)
    obtain ⟨h0, h1, h2, h3, h4, h5, h6, h7, h8, h9, h10⟩ := H t
    have hdet := massive_det hs hw hM Ω
    obtain ⟨q0, q1, q2⟩ : y t 9 = φ'' t ∧ y t 11 = δ'' t ∧ y t 12 = θ'' t := by
      refine cramer3 hdet fun i => ?_
      have b' := b i
      have h' := h10 i
      linear_combination h' - b'
    have g : ∀ (i : Fin 13) (v : ℝ), y t i = v → HasDerivAt (fun s => x s i) v t →
        HasDerivAt (fun s => x s i) (y t i) t := fun i v h hd => h ▸ hd
    intro i
    fin_cases i
    · exact g _ _ h0 (hx.forward t)
    · exact g _ _ h1 (hx.rolls.1 t)
    · have e : y t 2 = ψ' t := mul_left_cancel₀ hw (h2.trans (r1 t).symm)
      exact g _ _ e (d1 t)
    · exact g _ _ h3 ((hx.rates t).1)
    · exact g _ _ h4 (hx.pitch t)
    · exact g _ _ h5 ((hx.rates t).2.1)
    · exact g _ _ h6 ((hx.rates t).2.2.1)
    · exact g _ _ h7 (hx.front t)
    · exact g _ _ h8 ((hx.rates t).2.2.2)
    · exact g _ _ q0 (d3 t)
    · have h := (hx.drive t).const_mul (P.driveInertia)⁻¹
      simp only [← mul_assoc, inv_mul_cancel₀ hJ, one_mul] at h
      exact g _ _ (by rw [← h9]; field_simp; rfl) h
    · exact g _ _ q1 (d4 t)
    · exact g _ _ q2 (d5 t)

/-- The right hand side satisfies the equations, and nothing else does. -/
theorem lean_motion_iff (pitch : ℝ → ℝ → ℝ → ℝ → ℝ → ℝ → ℝ → ℝ) (junk : ℕ → ℝ) (f : String → ℝ)
    (lam w c Ω : ℝ) (hpitch : pitch 0 0 (f "rf") (f "rr") (f "d1") (f "d2") (f "d3") = lam)
    (hs : (LeanPar.of f).Stands lam w c) (hw : w ≠ 0) (hrf : f "rf" ≠ 0)
    (hJ : (LeanPar.of f).driveInertia ≠ 0) (hM : (LeanPar.of f).Massive lam w c)
    (x : ℝ → Fin 13 → ℝ) (T : ℝ → Fin 4 → ℝ) :
    let R := evalLinear real pitch junk ![0, 0, 0, 0, lam, 0, 0, 0, 0] ![0, Ω, 0, 0] 0 (slotVector f)
    (∀ t, HasDerivAt x (R.A *ᵥ x t + R.B *ᵥ T t) t) ↔ LeanMotion (LeanPar.of f) lam w c Ω x T := by
  intro R
  exact motion_of_rhs hs hw hJ hM Ω x _ T
    fun t => upright_rhs pitch junk f lam w c Ω hpitch hs hw hrf hJ hM (x t) (T t)

end BP
