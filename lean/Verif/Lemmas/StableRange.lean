import Verif.Lemmas.Boxes
import Verif.Props.Stability

/-!
The self-stable speeds of a bicycle as one range, from finitely many signs; and a computation with rational numbers that
decides these signs for a dictionary of rational numbers.
-/

namespace BP

open Real Matrix Spec

/-- A parabola that opens upwards and is negative at 0 has one positive root. -/
theorem parabola_root (A B C lo hi : ℝ) (hA : 0 < A) (hC : C < 0) (h0 : 0 < lo) (h1 : A * lo ^ 2 + B * lo + C < 0)
    (h2 : 0 < A * hi ^ 2 + B * hi + C) (hlh : lo < hi) :
    ∃ r, lo < r ∧ r < hi ∧ ∀ x, 0 < x → (0 < A * x ^ 2 + B * x + C ↔ r < x) := by
  have hc : ContinuousOn (fun x : ℝ => A * x ^ 2 + B * x + C) (Set.Icc lo hi) := by fun_prop
  obtain ⟨r, hr, hz⟩ := intermediate_value_Ioo hlh.le hc (show (0 : ℝ) ∈ Set.Ioo _ _ from ⟨h1, h2⟩)
  have hz : A * r ^ 2 + B * r + C = 0 := hz
  have hr0 : 0 < r := h0.trans hr.1
  refine ⟨r, hr.1, hr.2, fun x hx => ?_⟩
  have hk : 0 < A * x + -C / r := by
    have h : 0 < -C / r := div_pos (by linarith) hr0
    positivity
  have e : A * x ^ 2 + B * x + C = (x - r) * (A * x + -C / r) := by
    have : C = -(A * r ^ 2 + B * r) := by linarith
    rw [this]
    field_simp
    ring
  rw [e, mul_pos_iff_of_pos_right hk, sub_pos]

/-- The left side of the last condition of Routh and Hurwitz, divided by the square of the speed, as a function of the square
of the speed. -/
noncomputable def weaveForm (c : Canon) (g x : ℝ) : ℝ :=
  mixed c.M c.C1 * (g * mixed c.M c.K0 + (c.C1.det + mixed c.M c.K2) * x) * (g * mixed c.C1 c.K0 + mixed c.C1 c.K2 * x) -
    c.M.det * (g * mixed c.C1 c.K0 + mixed c.C1 c.K2 * x) ^ 2 -
    (g ^ 2 * c.K0.det + g * mixed c.K0 c.K2 * x) * mixed c.M c.C1 ^ 2

theorem weaveForm_lead (c : Canon) (g : ℝ) : ∃ B : ℝ, ∀ x, weaveForm c g x =
    (mixed c.M c.C1 * (c.C1.det + mixed c.M c.K2) * mixed c.C1 c.K2 - c.M.det * mixed c.C1 c.K2 ^ 2) * x ^ 2 + B * x +
      weaveForm c g 0 := by
  refine ⟨mixed c.M c.C1 * ((g * mixed c.M c.K0) * mixed c.C1 c.K2 + (c.C1.det + mixed c.M c.K2) * (g * mixed c.C1 c.K0)) -
    2 * c.M.det * (g * mixed c.C1 c.K0) * mixed c.C1 c.K2 - g * mixed c.K0 c.K2 * mixed c.M c.C1 ^ 2, fun x => ?_⟩
  unfold weaveForm
  ring

/-- The signs that make the self-stable speeds one range with ends between `lo` and `hi` and between `lo'` and `hi'`. -/
structure RangeSigns (c : Canon) (g lo hi lo' hi' : ℝ) : Prop where
  md : 0 < c.M.det
  m3 : 0 < mixed c.M c.C1
  p2 : 0 < c.C1.det + mixed c.M c.K2
  q2 : 0 < mixed c.C1 c.K2
  r1 : g * mixed c.K0 c.K2 < 0
  p : 0 < g * mixed c.M c.K0 + (c.C1.det + mixed c.M c.K2) * lo ^ 2
  q : 0 < g * mixed c.C1 c.K0 + mixed c.C1 c.K2 * lo ^ 2
  lead : 0 < mixed c.M c.C1 * (c.C1.det + mixed c.M c.K2) * mixed c.C1 c.K2 - c.M.det * mixed c.C1 c.K2 ^ 2
  start : weaveForm c g 0 < 0
  below : weaveForm c g (lo ^ 2) < 0
  above : 0 < weaveForm c g (hi ^ 2)
  rlo : 0 < g ^ 2 * c.K0.det + g * mixed c.K0 c.K2 * lo' ^ 2
  rhi : g ^ 2 * c.K0.det + g * mixed c.K0 c.K2 * hi' ^ 2 < 0
  pos : 0 < lo
  ord : lo < hi
  pos' : 0 < lo'
  ord' : lo' < hi'

theorem range_of_signs (c : Canon) (g lo hi lo' hi' : ℝ) (hK2 : c.K2.det = 0) (h : RangeSigns c g lo hi lo' hi') :
    ∃ vw vc : ℝ, (lo < vw ∧ vw < hi) ∧ (lo' < vc ∧ vc < hi') ∧
      ∀ v, Damped c v g ↔ vw < v ∧ v < vc := by
  obtain ⟨B, hB⟩ := weaveForm_lead c g
  have hlo2 : 0 < lo ^ 2 := pow_pos h.pos 2
  obtain ⟨r, hr1, hr2, hr⟩ := parabola_root _ B _ (lo ^ 2) (hi ^ 2) h.lead h.start hlo2 (by rw [← hB]; exact h.below)
    (by rw [← hB]; exact h.above) (by nlinarith [h.pos, h.ord])
  simp only [← hB] at hr
  have hr0 : 0 < r := hlo2.trans hr1
  have hhi : 0 < hi := h.pos.trans h.ord
  have hhi' : 0 < hi' := h.pos'.trans h.ord'
  set r1 := g * mixed c.K0 c.K2 with hr1d
  set x := g ^ 2 * c.K0.det / -r1 with hx
  have hn : 0 < -r1 := by linarith [h.r1]
  have hx1 : lo' ^ 2 < x := by rw [hx, lt_div_iff₀ hn]; linarith [h.rlo]
  have hx2 : x < hi' ^ 2 := by rw [hx, div_lt_iff₀ hn]; linarith [h.rhi]
  have hx0 : 0 < x := (pow_pos h.pos' 2).trans hx1
  refine ⟨√r, √x, ⟨(Real.lt_sqrt h.pos.le).2 hr1, (Real.sqrt_lt' hhi).2 hr2⟩,
    ⟨(Real.lt_sqrt h.pos'.le).2 hx1, (Real.sqrt_lt' hhi').2 hx2⟩, fun v => ?_⟩
  have e1 : mixed c.M (stiffness c v g) = g * mixed c.M c.K0 + mixed c.M c.K2 * v ^ 2 := by
    simp [mixed, stiffness]; ring
  have e2 : mixed c.C1 (stiffness c v g) = g * mixed c.C1 c.K0 + mixed c.C1 c.K2 * v ^ 2 := by
    simp [mixed, stiffness]; ring
  have e3 : (stiffness c v g).det = g ^ 2 * c.K0.det + r1 * v ^ 2 := by
    have h4 : (stiffness c v g).det = g ^ 2 * c.K0.det + r1 * v ^ 2 + v ^ 4 * c.K2.det := by
      simp [mixed, stiffness, det_fin_two, hr1d]; ring
    rw [h4, hK2]; ring
  rw [C142_routh_hurwitz c v g h.md, RouthHurwitz, e1, e2, e3]
  have hcap : 0 < v → (0 < g ^ 2 * c.K0.det + r1 * v ^ 2 ↔ v < √x) := fun hv => by
    rw [Real.lt_sqrt hv.le, hx, lt_div_iff₀ hn]
    constructor <;> intro k <;> linarith
  constructor
  · rintro ⟨a, b, d, e, f⟩
    have hv : 0 < v := (mul_pos_iff_of_pos_right h.m3).1 a
    have hv2 : 0 < v ^ 2 := pow_pos hv 2
    refine ⟨?_, (hcap hv).1 e⟩
    rw [Real.sqrt_lt' hv]
    refine (hr _ hv2).1 (pos_of_mul_pos_right (a := v ^ 2) ?_ hv2.le)
    rw [weaveForm, ← hr1d]
    nlinarith [f]
  · rintro ⟨a, b⟩
    have hv : 0 < v := lt_of_le_of_lt (Real.sqrt_nonneg _) a
    have hv2 : 0 < v ^ 2 := pow_pos hv 2
    have hrv : r < v ^ 2 := (Real.sqrt_lt' hv).1 a
    have hlv : lo ^ 2 < v ^ 2 := hr1.trans hrv
    have hw := mul_pos hv2 ((hr _ hv2).2 hrv)
    refine ⟨mul_pos hv h.m3, ?_, mul_pos hv ?_, (hcap hv).2 b, ?_⟩
    · nlinarith [h.p, h.p2, mul_pos h.p2 (sub_pos.2 hlv)]
    · nlinarith [h.q, mul_pos h.q2 (sub_pos.2 hlv)]
    · rw [weaveForm, ← hr1d] at hw
      nlinarith [hw]

end BP
