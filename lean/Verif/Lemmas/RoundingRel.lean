import Verif.Lemmas.Rounding

/-!
# Relative errors of rounded assignments
-/

set_option linter.unusedSimpArgs false

namespace BP

/-- `y` is the exact result `r` rounded by at most one part in 2^52. -/
def Spec.RoundedRel (r y : ℝ) : Prop := |y - r| ≤ |r| / 2 ^ 52

/-- The operations of a machine without a smallest and a largest number (the usual model of rounding, which holds of double
precision numbers as long as no result overflows or underflows). -/
structure Spec.RoundsRel (O : Machine) : Prop where
  neg : ∀ x, O.neg x = -x
  add : ∀ x y, RoundedRel (x + y) (O.add x y)
  sub : ∀ x y, RoundedRel (x - y) (O.sub x y)
  mul : ∀ x y, RoundedRel (x * y) (O.mul x y)
  div : ∀ x y, y ≠ 0 → RoundedRel (x / y) (O.div x y)
  sq : ∀ x, RoundedRel (x ^ 2) (O.sq x)
  cos : ∀ x, RoundedRel (Real.cos x) (O.cos x)
  sin : ∀ x, RoundedRel (Real.sin x) (O.sin x)
  /-- the usual bound for a dot product, which holds in any order of the operations and for fused ones -/
  dot : ∀ a b c d, |O.dot a b c d - (a * b + c * d)| ≤ (|a * b| + |c * d|) / 2 ^ 50

/-- A little more than one rounding, for the proofs. -/
noncomputable def wob : ℝ := 1 + 1 / 2 ^ 51

theorem wob_one : 1 ≤ wob := by unfold wob; norm_num
theorem wob_pos (n : ℕ) : 0 < wob ^ n := pow_pos (lt_of_lt_of_le one_pos wob_one) n

/-- `y` is the nonnegative `x` after `n` roundings, for the proofs. -/
def Near (n : ℕ) (x y : ℝ) : Prop := 0 ≤ x ∧ y ≤ wob ^ n * x ∧ x ≤ wob ^ n * y

namespace Near

theorem nonneg {n : ℕ} {x y : ℝ} (h : Near n x y) : 0 ≤ y := by
  by_contra hy
  push Not at hy
  have := mul_neg_of_pos_of_neg (wob_pos n) hy
  linarith [h.1, h.2.2]

theorem pos {n : ℕ} {x y : ℝ} (h : Near n x y) (hx : 0 < x) : 0 < y := by
  by_contra hy
  push Not at hy
  have := mul_nonpos_of_nonneg_of_nonpos (wob_pos n).le hy
  linarith [h.2.2]

theorem refl {x : ℝ} (h : 0 ≤ x) : Near 0 x x := ⟨h, by simp, by simp⟩

theorem mono {n m : ℕ} {x y : ℝ} (h : Near n x y) (hnm : n ≤ m) : Near m x y := by
  have hw := pow_le_pow_right₀ wob_one hnm
  exact ⟨h.1, h.2.1.trans (mul_le_mul_of_nonneg_right hw h.1), h.2.2.trans (mul_le_mul_of_nonneg_right hw h.nonneg)⟩

theorem trans {n m : ℕ} {x y z : ℝ} (h : Near n x y) (h' : Near m y z) : Near (n + m) x z := by
  refine ⟨h.1, ?_, ?_⟩
  · have := mul_le_mul_of_nonneg_left h.2.1 (wob_pos m).le
    rw [pow_add]
    linarith [h'.2.1]
  · have := mul_le_mul_of_nonneg_left h'.2.2 (wob_pos n).le
    rw [pow_add]
    linarith [h.2.2]

theorem add {n m : ℕ} {x y x' y' : ℝ} (h : Near n x y) (h' : Near m x' y') : Near (max n m) (x + x') (y + y') := by
  have h1 := h.mono (le_max_left n m)
  have h2 := h'.mono (le_max_right n m)
  exact ⟨add_nonneg h1.1 h2.1, by linarith [h1.2.1, h2.2.1], by linarith [h1.2.2, h2.2.2]⟩

theorem mul {n m : ℕ} {x y x' y' : ℝ} (h : Near n x y) (h' : Near m x' y') : Near (n + m) (x * x') (y * y') := by
  refine ⟨mul_nonneg h.1 h'.1, ?_, ?_⟩
  · have := mul_le_mul h.2.1 h'.2.1 h'.nonneg (mul_nonneg (wob_pos n).le h.1)
    rw [pow_add]
    linarith
  · have := mul_le_mul h.2.2 h'.2.2 h'.1 (mul_nonneg (wob_pos n).le h.nonneg)
    rw [pow_add]
    linarith

theorem inv {n : ℕ} {x y : ℝ} (h : Near n x y) (hx : 0 < x) : Near n x⁻¹ y⁻¹ := by
  have hy := h.pos hx
  refine ⟨(inv_pos.2 hx).le, ?_, ?_⟩
  · rw [inv_le_iff_one_le_mul₀ hy, mul_assoc, mul_comm x⁻¹, ← mul_assoc, ← div_eq_mul_inv, le_div_iff₀ hx, one_mul]
    exact h.2.2
  · rw [inv_le_iff_one_le_mul₀ hx, mul_assoc, mul_comm y⁻¹, ← mul_assoc, ← div_eq_mul_inv, le_div_iff₀ hy, one_mul]
    exact h.2.1

theorem div {n m : ℕ} {x y x' y' : ℝ} (h : Near n x y) (h' : Near m x' y') (hx : 0 < x') :
    Near (n + m) (x / x') (y / y') := by
  rw [div_eq_mul_inv, div_eq_mul_inv]
  exact h.mul (h'.inv hx)

/-- One rounding. -/
theorem round {r y : ℝ} (hr : 0 ≤ r) (h : Spec.RoundedRel r y) : Near 1 r y := by
  unfold Spec.RoundedRel at h
  rw [abs_of_nonneg hr, abs_le] at h
  have h1 : (1 : ℝ) / 2 ^ 52 * r = r / 2 ^ 52 := by ring
  refine ⟨hr, ?_, ?_⟩
  · rw [pow_one, wob]
    have : (1 : ℝ) / 2 ^ 51 * r = 2 * (r / 2 ^ 52) := by ring
    have h0 : 0 ≤ r / 2 ^ 52 := by positivity
    linarith [h.2]
  · rw [pow_one]
    have h2 : (1 - 1 / 2 ^ 52) * r ≤ y := by linarith [h.1]
    have h3 := mul_le_mul_of_nonneg_left h2 (zero_le_one.trans wob_one)
    have h4 : 1 ≤ wob * (1 - 1 / 2 ^ 52) := by unfold wob; norm_num
    have h5 := mul_le_mul_of_nonneg_right h4 hr
    linarith

/-- The relative error. -/
theorem rel {n : ℕ} {x y e : ℝ} (h : Near n x y) (he : wob ^ n ≤ 1 + e) : |y - x| ≤ e * x := by
  have h1 := mul_le_mul_of_nonneg_right he h.1
  rw [abs_le]
  refine ⟨?_, by linarith [h.2.1]⟩
  have hy := h.nonneg
  have h2 := mul_le_mul_of_nonneg_right he hy
  have h0 : 0 ≤ e := by linarith [one_le_pow₀ wob_one (n := n)]
  rcases le_total x y with hxy | hxy
  · have := mul_nonneg h0 h.1
    linarith
  · have := mul_le_mul_of_nonneg_left hxy h0
    linarith [h.2.2]

end Near

/-! ## Signs and numbers of roundings -/

/-- What is known of the sign of a value, for the proofs. -/
inductive Sgn where
  | pos
  | nonneg
  | nonpos
deriving DecidableEq

/-- The sign and the number of roundings of a value, for the proofs. -/
def Graded : Sgn → ℕ → ℝ → ℝ → Prop
  | .pos, n, x, y => 0 < x ∧ Near n x y
  | .nonneg, n, x, y => Near n x y
  | .nonpos, n, x, y => Near n (-x) (-y)

/-- The sign of a sum, for the proofs. -/
def Sgn.add : Sgn → Sgn → Option Sgn
  | pos, pos => some pos
  | pos, nonneg => some pos
  | nonneg, pos => some pos
  | nonneg, nonneg => some nonneg
  | nonpos, nonpos => some nonpos
  | _, _ => none

/-- The other sign, for the proofs. -/
def Sgn.neg : Sgn → Sgn
  | nonpos => nonneg
  | _ => nonpos

/-- The sign of a product, for the proofs. -/
def Sgn.mul : Sgn → Sgn → Sgn
  | pos, pos => pos
  | nonpos, nonpos => nonneg
  | nonpos, _ => nonpos
  | _, nonpos => nonpos
  | _, _ => nonneg

theorem Spec.RoundedRel.neg {r y : ℝ} (h : Spec.RoundedRel r y) : Spec.RoundedRel (-r) (-y) := by
  unfold Spec.RoundedRel at *
  rw [abs_neg, show -y - -r = -(y - r) by ring, abs_neg]
  exact h

namespace Graded

theorem nonneg {n : ℕ} {x y : ℝ} (h : Graded .pos n x y) : Graded .nonneg n x y := h.2

theorem round {s : Sgn} {n : ℕ} {x r y : ℝ} (h : Graded s n x r) (hy : Spec.RoundedRel r y) : Graded s (n + 1) x y := by
  cases s
  · exact ⟨h.1, h.2.trans (Near.round h.2.nonneg hy)⟩
  · exact Near.trans h (Near.round (Near.nonneg h) hy)
  · exact Near.trans h (Near.round (Near.nonneg h) hy.neg)

theorem neg {s : Sgn} {n : ℕ} {x y : ℝ} (h : Graded s n x y) : Graded s.neg n (-x) (-y) := by
  cases s
  · show Near n (- -x) (- -y); rw [neg_neg, neg_neg]; exact h.2
  · show Near n (- -x) (- -y); rw [neg_neg, neg_neg]; exact h
  · exact h

theorem add {s s' t : Sgn} {n m : ℕ} {x y x' y' : ℝ} (ht : s.add s' = some t) (h : Graded s n x y) (h' : Graded s' m x' y') :
    Graded t (max n m) (x + x') (y + y') := by
  cases s <;> cases s' <;> simp only [Sgn.add, Option.some.injEq, reduceCtorEq] at ht <;> subst ht
  · exact ⟨add_pos h.1 h'.1, h.2.add h'.2⟩
  · exact ⟨add_pos_of_pos_of_nonneg h.1 h'.1, h.2.add h'⟩
  · exact ⟨add_pos_of_nonneg_of_pos h.1 h'.1, Near.add h h'.2⟩
  · exact Near.add h h'
  · show Near _ _ _
    rw [neg_add, neg_add]
    exact Near.add h h'

theorem mul {s s' : Sgn} {n m : ℕ} {x y x' y' : ℝ} (h : Graded s n x y) (h' : Graded s' m x' y') :
    Graded (s.mul s') (n + m) (x * x') (y * y') := by
  have key : ∀ {x y x' y' : ℝ}, Near n x y → Near m (-x') (-y') → Near (n + m) (-(x * x')) (-(y * y')) := by
    intro x y x' y' h h'
    rw [← mul_neg, ← mul_neg]; exact h.mul h'
  have key' : ∀ {x y x' y' : ℝ}, Near n (-x) (-y) → Near m x' y' → Near (n + m) (-(x * x')) (-(y * y')) := by
    intro x y x' y' h h'
    rw [← neg_mul, ← neg_mul]; exact h.mul h'
  cases s <;> cases s'
  · exact ⟨mul_pos h.1 h'.1, h.2.mul h'.2⟩
  · exact h.2.mul h'
  · exact key h.2 h'
  · exact Near.mul h h'.2
  · exact Near.mul h h'
  · exact key h h'
  · exact key' h h'.2
  · exact key' h h'
  · show Near _ _ _
    rw [← neg_mul_neg, ← neg_mul_neg y]
    exact Near.mul h h'

theorem inv {n : ℕ} {x y : ℝ} (h : Graded .pos n x y) : Graded .pos n x⁻¹ y⁻¹ := ⟨inv_pos.2 h.1, h.2.inv h.1⟩

/-- The relative error. -/
theorem rel {s : Sgn} {n : ℕ} {x y e : ℝ} (h : Graded s n x y) (he : wob ^ n ≤ 1 + e) : |y - x| ≤ e * |x| := by
  cases s
  · rw [abs_of_pos h.1]; exact h.2.rel he
  · rw [abs_of_nonneg (show 0 ≤ x from h.1)]; exact Near.rel h he
  · have h1 := Near.rel h he
    have h0 : x ≤ 0 := by have := h.1; linarith
    rw [abs_of_nonpos h0]
    rwa [show -y - -x = -(y - x) by ring, abs_neg] at h1

end Graded

/-! ## Expressions -/

/-- The sign and the number of roundings of an expression, for the proofs: `G` gives those of the variables, `T` the variables
that are acute angles, given exactly. -/
def RExpr.grade (G : String → Option (Sgn × ℕ)) (T : String → Bool) : RExpr → Option (Sgn × ℕ)
  | var k => G k
  | int n => if 0 < n then some (.pos, 0) else none
  | neg a => (a.grade G T).map fun p => (p.1.neg, p.2)
  | add a b => (a.grade G T).bind fun p => (b.grade G T).bind fun q => (p.1.add q.1).map fun t => (t, max p.2 q.2 + 1)
  | sub a b => (a.grade G T).bind fun p => (b.grade G T).bind fun q => (p.1.add q.1.neg).map fun t => (t, max p.2 q.2 + 1)
  | mul a b => (a.grade G T).bind fun p => (b.grade G T).map fun q => (p.1.mul q.1, p.2 + q.2 + 1)
  | div a b => (a.grade G T).bind fun p => (b.grade G T).bind fun q =>
      if q.1 = .pos then some (p.1.mul .pos, p.2 + q.2 + 1) else none
  | sq a => (a.grade G T).map fun p => (p.1.mul p.1, p.2 + p.2 + 1)
  | cos (.var k) => if T k then some (.pos, 1) else none
  | cos _ => none
  | sin (.var k) => if T k then some (.nonneg, 1) else none
  | sin _ => none

/-- The values of the variables, exact and computed, are as graded, for the proofs. -/
def GradeOk (G : String → Option (Sgn × ℕ)) (T : String → Bool) (k : String) (x y : ℝ) : Prop :=
  (∀ s n, G k = some (s, n) → Graded s n x y) ∧ (T k = true → y = x ∧ 0 < Real.cos x ∧ 0 ≤ Real.sin x)

theorem RExpr.graded {O : Machine} (hO : Spec.RoundsRel O) {G : String → Option (Sgn × ℕ)} {T : String → Bool}
    {V m : String → ℝ} (e : RExpr) (s : Sgn) (n : ℕ) (he : e.grade G T = some (s, n))
    (hm : ∀ v ∈ e.vars, GradeOk G T v (V v) (m v)) : Graded s n (e.val exactMachine V) (e.val O m) := by
  induction e generalizing s n with
  | var k => exact (hm k (by simp [vars])).1 s n he
  | int k =>
    simp only [grade] at he
    split at he
    · rename_i hk
      simp only [Option.some.injEq, Prod.mk.injEq] at he
      obtain ⟨rfl, rfl⟩ := he
      have hk' : (0 : ℝ) < k := by exact_mod_cast hk
      exact ⟨hk', Near.refl hk'.le⟩
    · simp at he
  | neg a ih =>
    simp only [grade, Option.map_eq_some_iff, Prod.mk.injEq] at he
    obtain ⟨p, hp, rfl, rfl⟩ := he
    show Graded _ _ (-(a.val exactMachine V)) (O.neg _)
    rw [hO.neg]
    exact (ih p.1 p.2 hp hm).neg
  | add a b iha ihb =>
    simp only [grade, Option.bind_eq_some_iff, Option.map_eq_some_iff, Prod.mk.injEq] at he
    obtain ⟨p, hp, q, hq, t, ht, rfl, rfl⟩ := he
    have h1 := iha p.1 p.2 hp fun v hv => hm v (by simp [vars, hv])
    have h2 := ihb q.1 q.2 hq fun v hv => hm v (by simp [vars, hv])
    exact (h1.add ht h2).round (hO.add _ _)
  | sub a b iha ihb =>
    simp only [grade, Option.bind_eq_some_iff, Option.map_eq_some_iff, Prod.mk.injEq] at he
    obtain ⟨p, hp, q, hq, t, ht, rfl, rfl⟩ := he
    have h1 := iha p.1 p.2 hp fun v hv => hm v (by simp [vars, hv])
    have h2 := (ihb q.1 q.2 hq fun v hv => hm v (by simp [vars, hv])).neg
    have h3 := h1.add ht h2
    rw [← sub_eq_add_neg, ← sub_eq_add_neg] at h3
    exact h3.round (hO.sub _ _)
  | mul a b iha ihb =>
    simp only [grade, Option.bind_eq_some_iff, Option.map_eq_some_iff, Prod.mk.injEq] at he
    obtain ⟨p, hp, q, hq, rfl, rfl⟩ := he
    have h1 := iha p.1 p.2 hp fun v hv => hm v (by simp [vars, hv])
    have h2 := ihb q.1 q.2 hq fun v hv => hm v (by simp [vars, hv])
    exact (h1.mul h2).round (hO.mul _ _)
  | div a b iha ihb =>
    simp only [grade, Option.bind_eq_some_iff, Option.map_eq_some_iff, Prod.mk.injEq] at he
    obtain ⟨p, hp, ⟨qs, qn⟩, hq, he⟩ := he
    split at he
    · rename_i hs
      simp only [Option.some.injEq, Prod.mk.injEq] at he
      obtain ⟨rfl, rfl⟩ := he
      subst hs
      have h1 := iha p.1 p.2 hp fun v hv => hm v (by simp [vars, hv])
      have h2 := ihb .pos qn hq fun v hv => hm v (by simp [vars, hv])
      have h3 := h1.mul h2.inv
      rw [← div_eq_mul_inv, ← div_eq_mul_inv] at h3
      exact h3.round (hO.div _ _ (h2.2.pos h2.1).ne')
    · simp at he
  | sq a ih =>
    simp only [grade, Option.map_eq_some_iff, Prod.mk.injEq] at he
    obtain ⟨p, hp, rfl, rfl⟩ := he
    have h1 := ih p.1 p.2 hp hm
    have h2 := h1.mul h1
    rw [← pow_two, ← pow_two] at h2
    exact h2.round (hO.sq _)
  | cos a _ =>
    cases a with
    | var k =>
      simp only [grade] at he
      split at he
      · rename_i hk
        simp only [Option.some.injEq, Prod.mk.injEq] at he
        obtain ⟨rfl, rfl⟩ := he
        obtain ⟨h1, h2, -⟩ := (hm k (by simp [vars])).2 hk
        show Graded _ _ (Real.cos (V k)) (O.cos (m k))
        rw [h1]
        exact ⟨h2, Near.round h2.le (hO.cos _)⟩
      · simp at he
    | _ => simp [grade] at he
  | sin a _ =>
    cases a with
    | var k =>
      simp only [grade] at he
      split at he
      · rename_i hk
        simp only [Option.some.injEq, Prod.mk.injEq] at he
        obtain ⟨rfl, rfl⟩ := he
        obtain ⟨h1, -, h2⟩ := (hm k (by simp [vars])).2 hk
        show Graded _ _ (Real.sin (V k)) (O.sin (m k))
        rw [h1]
        exact Near.round h2 (hO.sin _)
      · simp at he
    | _ => simp [grade] at he

/-- A table of grades fits the assignments, for the proofs. -/
def gradesFit (G : String → Option (Sgn × ℕ)) (T : String → Bool) (p : List (String × RExpr)) : Bool :=
  p.all fun s => !(T s.1) && match G s.1 with
    | none => true
    | some g => decide (s.2.grade G T = some g)

/-- The values computed by the assignments are as graded, against the exact values. -/
theorem run_graded {O : Machine} (hO : Spec.RoundsRel O) (G : String → Option (Sgn × ℕ)) (T : String → Bool) (V : String → ℝ)
    (p : List (String × RExpr)) (known : List String) (m : String → ℝ) (h0 : ∀ k ∈ known, GradeOk G T k (V k) (m k))
    (ho : ordered known p = true) (hV : ∀ s ∈ p, s.2.val exactMachine V = V s.1) (hG : gradesFit G T p = true) :
    ∀ k ∈ known ++ p.map Prod.fst, GradeOk G T k (V k) (runLines O p m k) := by
  refine run_ind O (fun k y => GradeOk G T k (V k) y) p known m h0 ho fun s hs m' hm => ?_
  have h := List.all_eq_true.1 hG s hs
  rw [Bool.and_eq_true, Bool.not_eq_true'] at h
  refine ⟨fun t n ht => ?_, fun ht => by rw [h.1] at ht; simp at ht⟩
  have h2 := h.2
  rw [ht] at h2
  rw [← hV s hs]
  exact RExpr.graded hO s.2 t n (of_decide_eq_true h2) hm

end BP
