import Verif.Lemmas.RoundingRel
import Verif.Props.Rounding

/-!
# C155: rounding for every bicycle
-/

set_option linter.unusedSimpArgs false

namespace BP

open Real Matrix Spec

/-- The parameters of an ordinary bicycle: all keys are there, masses, wheel radii and wheelbase are positive, the moments of
inertia about the longitudinal axes and of the wheels' spin and the trail are not negative, the centres of mass of frame and
handlebar are not below the ground, and the steer axis tilt is acute. -/
structure Spec.Ordinary (d : Dict ℝ) : Prop where
  keys : ∀ k ∈ canonKeys, Dict.has d k = true
  pos : ∀ k ∈ ["mR", "mB", "mH", "mF", "rR", "rF", "w"], 0 < Dict.getD d k 0
  nonneg : ∀ k ∈ ["IRxx", "IBxx", "IHxx", "IFxx", "IRyy", "IFyy", "c"], 0 ≤ Dict.getD d k 0
  nonpos : ∀ k ∈ ["zB", "zH"], Dict.getD d k 0 ≤ 0
  lam : 0 ≤ Dict.getD d "lam" 0 ∧ Dict.getD d "lam" 0 < π / 2

/-- `y` is `x` up to one part in `1 / e`. -/
def Spec.WithinRel (e x y : ℝ) : Prop := |y - x| ≤ e * |x|

/-- Signs and numbers of roundings, for the proof. -/
def canonGrade (k : String) : Option (Sgn × ℕ) :=
  if k ∈ ["mR", "mB", "mH", "mF", "rR", "rF", "w"] then some (.pos, 0)
  else if k ∈ ["IRxx", "IBxx", "IHxx", "IFxx", "IRyy", "IFyy", "c"] then some (.nonneg, 0)
  else if k ∈ ["zB", "zH"] then some (.nonpos, 0)
  else Dict.find? [("mT", (.pos, 3)), ("zT", (.nonpos, 8)), ("ITxx", (.pos, 7)), ("mu", (.nonneg, 3)), ("SR", (.nonneg, 1)),
    ("SF", (.nonneg, 1)), ("ST", (.nonneg, 2)), ("Mpp", (.pos, 7)), ("K0pp", (.nonpos, 12)), ("K2pd", (.nonneg, 16)),
    ("C1dp", (.nonpos, 7))] k

/-- The angle, for the proof. -/
def canonAngle (k : String) : Bool := k == "lam"

theorem canon_fits : gradesFit canonGrade canonAngle canonLines = true := by decide +kernel

theorem canonGrade_input (k : String) (hk : k ∈ canonInputs) (s : Sgn) (n : ℕ) (h : canonGrade k = some (s, n)) :
    n = 0 ∧ ((s = .pos ∧ k ∈ ["mR", "mB", "mH", "mF", "rR", "rF", "w"]) ∨
      (s = .nonneg ∧ k ∈ ["IRxx", "IBxx", "IHxx", "IFxx", "IRyy", "IFyy", "c"]) ∨ (s = .nonpos ∧ k ∈ ["zB", "zH"])) := by
  unfold canonGrade at h
  split at h
  · simp only [Option.some.injEq, Prod.mk.injEq] at h; rename_i hk'; exact ⟨h.2.symm, .inl ⟨h.1.symm, hk'⟩⟩
  split at h
  · simp only [Option.some.injEq, Prod.mk.injEq] at h; rename_i hk'; exact ⟨h.2.symm, .inr (.inl ⟨h.1.symm, hk'⟩)⟩
  split at h
  · simp only [Option.some.injEq, Prod.mk.injEq] at h; rename_i hk'; exact ⟨h.2.symm, .inr (.inr ⟨h.1.symm, hk'⟩)⟩
  · exfalso
    have hm := mem_of_find? h
    have : ∀ e ∈ [("mT", ((.pos, 3) : Sgn × ℕ)), ("zT", (.nonpos, 8)), ("ITxx", (.pos, 7)), ("mu", (.nonneg, 3)),
        ("SR", (.nonneg, 1)), ("SF", (.nonneg, 1)), ("ST", (.nonneg, 2)), ("Mpp", (.pos, 7)), ("K0pp", (.nonpos, 12)),
        ("K2pd", (.nonneg, 16)), ("C1dp", (.nonpos, 7))], e.1 ∉ canonInputs := by decide
    exact this _ hm hk

theorem canon_graded {O : Machine} (hO : RoundsRel O) (d : Dict ℝ) (hd : Ordinary d) (k : String)
    (hk : k ∈ canonLines.map Prod.fst) : GradeOk canonGrade canonAngle k (exactValue (Bench.ofDict d) k)
      (runLines O canonLines (fun k => Dict.getD d k 0) k) := by
  refine run_graded hO canonGrade canonAngle (exactValue (Bench.ofDict d)) canonLines canonInputs _ (fun k hk => ?_)
    (by decide) (exact_lines _) canon_fits k (List.mem_append_right _ hk)
  rw [← exact_inputs d k hk]
  refine ⟨fun s n h => ?_, fun h => ⟨rfl, ?_⟩⟩
  · have h' := canonGrade_input k hk s n h
    clear h
    obtain ⟨rfl, h⟩ := h'
    rcases h with ⟨rfl, h⟩ | ⟨rfl, h⟩ | ⟨rfl, h⟩
    · exact ⟨hd.pos k h, Near.refl (hd.pos k h).le⟩
    · exact Near.refl (hd.nonneg k h)
    · exact Near.refl (neg_nonneg.2 (hd.nonpos k h))
  · obtain rfl : k = "lam" := by simpa [canonAngle] using h
    obtain ⟨h1, h2⟩ := hd.lam
    exact ⟨cos_pos_of_mem_Ioo ⟨by linarith [pi_pos], h2⟩, sin_nonneg_of_nonneg_of_le_pi h1 (by linarith [pi_pos])⟩

theorem wob_7 : wob ^ 7 ≤ 1 + 1 / 2 ^ 48 := by unfold wob; norm_num
theorem wob_12 : wob ^ 12 ≤ 1 + 1 / 2 ^ 47 := by unfold wob; norm_num
theorem wob_14 : wob ^ 14 ≤ 1 + 1 / 2 ^ 47 := by unfold wob; norm_num
theorem wob_16 : wob ^ 16 ≤ 1 + 1 / 2 ^ 46 := by unfold wob; norm_num

/-- **C155.** For every ordinary bicycle and every way of rounding, four entries of the matrices that
`benchmark_par_to_canonical` computes have small relative errors: the roll inertia `M 0 0`, the roll stiffness `K0 0 0` (14
decimals), `K2 0 1` and `C1 1 0`. -/
theorem C155_entries (O : Machine) (hO : RoundsRel O) (d : Dict ℝ) (hd : Ordinary d) :
    ∃ (d' : Dict ℝ) (c : Canon), benchmarkParToCanonical d = (d', .ok c) ∧
      WithinRel (1 / 2 ^ 48) (c.M 0 0) ((machineCanon O d).M 0 0) ∧
      WithinRel (1 / 2 ^ 47) (c.K0 0 0) ((machineCanon O d).K0 0 0) ∧
      WithinRel (1 / 2 ^ 46) (c.K2 0 1) ((machineCanon O d).K2 0 1) ∧
      WithinRel (1 / 2 ^ 48) (c.C1 1 0) ((machineCanon O d).C1 1 0) := by
  refine ⟨_, _, canonical_of_keys d hd.keys, ?_, ?_, ?_, ?_⟩
  · exact ((canon_graded hO d hd "Mpp" (by decide)).1 .pos 7 (by decide)).rel wob_7
  · exact ((canon_graded hO d hd "K0pp" (by decide)).1 .nonpos 12 (by decide)).rel wob_12
  · exact ((canon_graded hO d hd "K2pd" (by decide)).1 .nonneg 16 (by decide)).rel wob_16
  · exact ((canon_graded hO d hd "C1dp" (by decide)).1 .nonpos 7 (by decide)).rel wob_7

/-! ## The pendulum formulas -/

/-- One expression with given values. -/
theorem expr_graded {O : Machine} (hO : RoundsRel O) (G : String → Option (Sgn × ℕ)) {V m : String → ℝ} (e : RExpr) (s : Sgn)
    (n : ℕ) (he : e.grade G (fun _ => false) = some (s, n)) (hm : ∀ v ∈ e.vars, ∀ s n, G v = some (s, n) →
      Graded s n (V v) (m v)) : Graded s n (e.val exactMachine V) (e.val O m) :=
  RExpr.graded hO e s n he fun v hv => ⟨hm v hv, by simp⟩

theorem graded_pi {pi : ℝ} (hpi : RoundedRel π pi) : Graded .pos 1 π pi := ⟨pi_pos, Near.round pi_pos.le hpi⟩

theorem stiffness_graded {O : Machine} (hO : RoundsRel O) {pi : ℝ} (hpi : RoundedRel π pi) {I T : ℝ} (hI : 0 ≤ I) (hT : 0 < T) :
    Graded .nonneg 7 (torsionalPendulumStiffness I T) (machineStiffness O pi I T) := by
  have h := expr_graded hO (fun v => Dict.find? [("I", (.nonneg, 0)), ("T", (.pos, 0)), ("pi", (.pos, 1))] v)
    (V := fun v => if v = "I" then I else if v = "T" then T else π)
    (m := fun v => if v = "I" then I else if v = "T" then T else pi) stiffnessExpr .nonneg 7 (by decide) (by
      intro v hv s n h
      have hm := mem_of_find? h
      simp only [List.mem_cons, Prod.mk.injEq, List.not_mem_nil, or_false] at hm
      rcases hm with ⟨rfl, rfl, rfl⟩ | ⟨rfl, rfl, rfl⟩ | ⟨rfl, rfl, rfl⟩
      · exact Near.refl hI
      · exact ⟨hT, Near.refl hT.le⟩
      · exact graded_pi hpi)
  exact h

theorem tor_graded {O : Machine} (hO : RoundsRel O) {pi : ℝ} (hpi : RoundedRel π pi) {k k' T : ℝ} {n : ℕ}
    (hk : Graded .nonneg n k k') (hT : 0 < T) :
    Graded .nonneg (n + 7) (torInertia k T) (machineTorInertia O pi k' T) := by
  have h := expr_graded hO (fun v => Dict.find? [("k", (.nonneg, n)), ("T", (.pos, 0)), ("pi", (.pos, 1))] v)
    (V := fun v => if v = "k" then k else if v = "T" then T else π)
    (m := fun v => if v = "k" then k' else if v = "T" then T else pi) torInertiaExpr .nonneg (n + 7) (by rfl) (by
      intro v hv s n h
      have hm := mem_of_find? h
      simp only [List.mem_cons, Prod.mk.injEq, List.not_mem_nil, or_false] at hm
      rcases hm with ⟨rfl, rfl, rfl⟩ | ⟨rfl, rfl, rfl⟩ | ⟨rfl, rfl, rfl⟩
      · exact hk
      · exact ⟨hT, Near.refl hT.le⟩
      · exact graded_pi hpi)
  exact h

/-- **C155.** For every nonnegative stiffness and inertia and every positive period, the computed moment of inertia of a
torsional pendulum and the computed stiffness have relative errors below one part in 2^48; calibrating with a known moment of
inertia and measuring it again returns it up to one part in 2^47. -/
theorem C155_pendulum (O : Machine) (hO : RoundsRel O) (pi : ℝ) (hpi : RoundedRel π pi) (T : ℝ) (hT : 0 < T) :
    (∀ k, 0 ≤ k → WithinRel (1 / 2 ^ 48) (torInertia k T) (machineTorInertia O pi k T)) ∧
    (∀ I, 0 ≤ I → WithinRel (1 / 2 ^ 48) (torsionalPendulumStiffness I T) (machineStiffness O pi I T)) ∧
    ∀ I, 0 ≤ I → WithinRel (1 / 2 ^ 47) I (machineTorInertia O pi (machineStiffness O pi I T) T) := by
  refine ⟨fun k hk => ?_, fun I hI => (stiffness_graded hO hpi hI hT).rel wob_7, fun I hI => ?_⟩
  · exact (tor_graded hO hpi (n := 0) (Near.refl hk) hT).rel wob_7
  · have h := (tor_graded hO hpi (stiffness_graded hO hpi hI hT) hT).rel wob_14
    have e : torInertia (torsionalPendulumStiffness I T) T = I := by
      unfold torInertia torsionalPendulumStiffness
      have := pi_pos.ne'
      have := hT.ne'
      field_simp
    rwa [e] at h

/-- **C155.** For every tube with nonnegative mass, length and radii, the computed moments of inertia have relative errors below
one part in 2^48, and the two about the normal axes are equal. -/
theorem C155_tube (O : Machine) (hO : RoundsRel O) (l m ro ri : ℝ) (hl : 0 ≤ l) (hm : 0 ≤ m) (ho : 0 ≤ ro) (hi : 0 ≤ ri) :
    WithinRel (1 / 2 ^ 48) (tubeInertia l m ro ri).1 (machineTube O l m ro ri).1 ∧
    WithinRel (1 / 2 ^ 48) (tubeInertia l m ro ri).2.1 (machineTube O l m ro ri).2.1 ∧
    (machineTube O l m ro ri).2.2 = (machineTube O l m ro ri).2.1 := by
  have key : ∀ (e : RExpr) n, e.grade (fun v => Dict.find? [("l", (.nonneg, 0)), ("m", (.nonneg, 0)), ("ro", (.nonneg, 0)),
      ("ri", (.nonneg, 0))] v) (fun _ => false) = some (.nonneg, n) → Graded .nonneg n
        (e.val exactMachine fun v => if v = "l" then l else if v = "m" then m else if v = "ro" then ro else ri)
        (e.val O fun v => if v = "l" then l else if v = "m" then m else if v = "ro" then ro else ri) := fun e n he =>
    expr_graded hO _ e .nonneg n he (by
      intro v hv s n h
      have hm := mem_of_find? h
      simp only [List.mem_cons, Prod.mk.injEq, List.not_mem_nil, or_false] at hm
      rcases hm with ⟨rfl, rfl, rfl⟩ | ⟨rfl, rfl, rfl⟩ | ⟨rfl, rfl, rfl⟩ | ⟨rfl, rfl, rfl⟩
      · exact Near.refl hl
      · exact Near.refl ‹0 ≤ m›
      · exact Near.refl ho
      · exact Near.refl hi)
  have w : ∀ n ≤ 7, wob ^ n ≤ 1 + 1 / 2 ^ 48 := fun n hn => (pow_le_pow_right₀ wob_one hn).trans wob_7
  exact ⟨(key tubeAxisExpr 4 (by decide)).rel (w 4 (by norm_num)), (key tubeNormalExpr 6 (by decide)).rel (w 6 (by norm_num)), rfl⟩

/-! ## Examples -/

/-- non-vacuity of C155: results that are all too large by one part in 2^52 -/
theorem example_rounds_rel : RoundsRel (roundingMachine fun r => r + r / 2 ^ 52) := by
  have h : ∀ r : ℝ, RoundedRel r (r + r / 2 ^ 52) := fun r => by
    unfold RoundedRel
    rw [show r + r / 2 ^ 52 - r = r / 2 ^ 52 by ring, abs_div, abs_of_pos (by positivity : (0 : ℝ) < 2 ^ 52)]
  refine ⟨fun _ => rfl, fun _ _ => h _, fun _ _ => h _, fun _ _ => h _, fun _ _ _ => h _, fun _ => h _, fun _ => h _, fun _ => h _,
    fun a b c d => ?_⟩
  show |a * b + a * b / 2 ^ 52 + (c * d + c * d / 2 ^ 52) + (a * b + a * b / 2 ^ 52 + (c * d + c * d / 2 ^ 52)) / 2 ^ 52 -
    (a * b + c * d)| ≤ _
  rw [show ∀ s t : ℝ, s + s / 2 ^ 52 + (t + t / 2 ^ 52) + (s + s / 2 ^ 52 + (t + t / 2 ^ 52)) / 2 ^ 52 - (s + t) =
    (s + t) * (2 / 2 ^ 52 + 1 / 2 ^ 104) from fun s t => by ring, abs_mul, abs_of_pos (by norm_num : (0 : ℝ) < 2 / 2 ^ 52 + 1 / 2 ^ 104)]
  have h1 := abs_add_le (a * b) (c * d)
  have h2 : |a * b + c * d| * (2 / 2 ^ 52 + 1 / 2 ^ 104) ≤ (|a * b| + |c * d|) * (1 / 2 ^ 50) :=
    mul_le_mul h1 (by norm_num) (by norm_num) (by positivity)
  linarith

/-- non-vacuity of C155: the benchmark bicycle -/
theorem example_ordinary : Ordinary (realDict benchmarkBicycle) where
  keys k hk := (nearest_self benchmarkBicycle).has ((by decide +kernel : ∀ k ∈ canonKeys, Dict.has benchmarkBicycle k = true) k hk)
  pos k hk := by
    rw [realDict_getD]
    exact_mod_cast (by decide +kernel : ∀ k ∈ ["mR", "mB", "mH", "mF", "rR", "rF", "w"], 0 < Dict.getD benchmarkBicycle k 0) k hk
  nonneg k hk := by
    rw [realDict_getD]
    exact_mod_cast (by decide +kernel : ∀ k ∈ ["IRxx", "IBxx", "IHxx", "IFxx", "IRyy", "IFyy", "c"],
      0 ≤ Dict.getD benchmarkBicycle k 0) k hk
  nonpos k hk := by
    rw [realDict_getD]
    exact_mod_cast (by decide +kernel : ∀ k ∈ ["zB", "zH"], Dict.getD benchmarkBicycle k 0 ≤ 0) k hk
  lam := by
    rw [realDict_getD]
    have h : (0 : ℚ) ≤ Dict.getD benchmarkBicycle "lam" 0 ∧ Dict.getD benchmarkBicycle "lam" 0 ≤ 1 / 2 := by decide +kernel
    have h1 : (0 : ℝ) ≤ ((Dict.getD benchmarkBicycle "lam" 0 : ℚ) : ℝ) := by exact_mod_cast h.1
    have h2 : ((Dict.getD benchmarkBicycle "lam" 0 : ℚ) : ℝ) ≤ 1 / 2 := by
      have := (Rat.cast_le (K := ℝ)).2 h.2
      push_cast at this
      exact this
    exact ⟨h1, lt_of_le_of_lt h2 (by linarith [two_le_pi])⟩

end BP
