import Verif.Props.LeanMotion
import Verif.Props.NewtonEuler

/-!
# Energy of the rider lean model, and its relation to the Whipple model: C105, C106
-/

set_option linter.unusedSimpArgs false

namespace BP

open Matrix Real Spec EL

/-- The equations of a motion in coordinates. -/
theorem motion_equations {P : LeanPar} {lam w c Ω : ℝ} (hs : P.Stands lam w c) (hw : w ≠ 0)
    {x : ℝ → Fin 13 → ℝ} {T : ℝ → Fin 4 → ℝ} (hx : LeanMotion P lam w c Ω x T) :
    ∃ ψ' φ'' δ'' θ'' : ℝ → ℝ, (∀ t, HasDerivAt (fun s => x s 2) (ψ' t) t) ∧
    (∀ t, HasDerivAt (fun s => x s 9) (φ'' t) t) ∧ (∀ t, HasDerivAt (fun s => x s 11) (δ'' t) t) ∧
    (∀ t, HasDerivAt (fun s => x s 12) (θ'' t) t) ∧
    (∀ t, w * ψ' t = (P.speed Ω * x t 6 + c * x t 11) * cos lam) ∧
    let L := toLP P lam Ω
    ∀ t i, (L.mass i 0 * φ'' t + L.mass i 1 * δ'' t + L.mass i 2 * θ'' t) +
      (L.damp i 0 * x t 9 + L.damp i 1 * x t 11 + L.damp i 2 * x t 12) +
      (L.stiff i 0 * x t 3 + L.stiff i 1 * x t 6 + L.stiff i 2 * x t 8) = ![T t 0, T t 2, T t 3] i := by
  obtain ⟨ψ', ψ'', φ'', δ'', θ'', d1, d2, d3, d4, d5, hb⟩ := hx.balance
  have r1 := rolling_rates _ _ _ _ _ _ _ _ ψ' (fun t => x t 11) hx.rolls d1 (fun t => (hx.rates t).2.2.1)
  have r2 : ∀ t, w * ψ'' t = (P.speed Ω * x t 11 + c * δ'' t) * cos lam := by
    intro t
    have e : (fun s => w * ψ' s) = fun s => (P.speed Ω * x s 6 + c * x s 11) * cos lam := by
      funext s; exact r1 s
    have h := (d2 t).const_mul w
    rw [e] at h
    exact h.unique (((((hx.rates t).2.2.1).const_mul _).add ((d4 t).const_mul c)).mul_const (cos lam))
  exact ⟨ψ', φ'', δ'', θ'', d1, d3, d4, d5, r1,
    fun t => (lean_balance_iff hs hw Ω _ _ _ _ rfl (r1 t) (r2 t)).1 (hb t)⟩

/-- The stiffness matrix at rest. -/
noncomputable def restStiffness (P : LeanPar) (lam : ℝ) : Matrix (Fin 3) (Fin 3) ℝ :=
  .of fun i j => (toLP P lam 0).stiff i j

theorem restStiffness_symm (P : LeanPar) (lam : ℝ) : (restStiffness P lam).IsSymm := by
  have hv : (toLP P lam 0).v = 0 := by simp [LP.v, toLP]
  ext i j
  fin_cases i <;> fin_cases j <;> simp [restStiffness, LP.stiff, hv]

theorem motion_energy {P : LeanPar} {lam w c : ℝ} (hs : P.Stands lam w c) (hw : w ≠ 0)
    {x : ℝ → Fin 13 → ℝ} {T : ℝ → Fin 4 → ℝ} (hx : LeanMotion P lam w c 0 x T) (t : ℝ) :
    HasDerivAt (fun s => P.energy lam w c (x s 9) (deriv (fun r => x r 2) s) (x s 11) (x s 12) +
      1 / 2 * (![x s 3, x s 6, x s 8] ⬝ᵥ (restStiffness P lam *ᵥ ![x s 3, x s 6, x s 8])))
      (T t 0 * x t 9 + T t 2 * x t 11 + T t 3 * x t 12 - P.c9 * x t 12 ^ 2) t := by
  obtain ⟨ψ', φ'', δ'', θ'', d1, d3, d4, d5, r1, eqs⟩ := motion_equations hs hw hx
  have hv : (toLP P lam 0).v = 0 := by simp [LP.v, toLP]
  have hR : (toLP P lam 0).HR = 0 := by simp [LP.HR, toLP]
  have hF : (toLP P lam 0).HF = 0 := by simp [LP.HF, toLP]
  have hc9 : (toLP P lam 0).c9 = P.c9 := rfl
  have hsp : P.speed 0 = 0 := by simp [LeanPar.speed]
  have he : ∀ s, P.energy lam w c (x s 9) (deriv (fun r => x r 2) s) (x s 11) (x s 12) = _ := fun s =>
    lean_energy_eq hs hw 0 (x s 9) (deriv (fun r => x r 2) s) (x s 11) (x s 12) (by
      rw [(d1 s).deriv, r1 s, hsp]; ring)
  simp only [he]
  have hd : ∀ i j, (toLP P lam 0).damp i j = if i = 2 ∧ j = 2 then P.c9 else 0 := by
    intro i j
    fin_cases i <;> fin_cases j <;> simp [LP.damp, hv, hR, hF, hc9]
  have hms : ∀ i j, (toLP P lam 0).mass i j = (toLP P lam 0).mass j i := by
    intro i j; fin_cases i <;> fin_cases j <;> rfl
  have hks : ∀ i j, restStiffness P lam i j = restStiffness P lam j i := fun i j =>
    (congrFun (congrFun (restStiffness_symm P lam) i) j).symm
  have hk : ∀ i j, (toLP P lam 0).stiff i j = restStiffness P lam i j := fun _ _ => rfl
  generalize restStiffness P lam = K at *
  simp only [hk, hd] at eqs
  generalize (toLP P lam 0).mass = M at *
  obtain ⟨q3, -, q6, q8⟩ := hx.rates t
  have e0 := eqs t 0
  have e1 := eqs t 1
  have e2 := eqs t 2
  simp at e0 e1 e2
  have d9 := d3 t
  have d11 := d4 t
  have d12 := d5 t
  have D := (((d9.mul (((d9.const_mul (M 0 0)).add (d11.const_mul (M 0 1))).add (d12.const_mul (M 0 2)))).add
    (d11.mul (((d9.const_mul (M 1 0)).add (d11.const_mul (M 1 1))).add (d12.const_mul (M 1 2))))).add
    (d12.mul (((d9.const_mul (M 2 0)).add (d11.const_mul (M 2 1))).add (d12.const_mul (M 2 2))))).const_mul (1 / 2)
  have D' := (((q3.mul (((q3.const_mul (K 0 0)).add (q6.const_mul (K 0 1))).add (q8.const_mul (K 0 2)))).add
    (q6.mul (((q3.const_mul (K 1 0)).add (q6.const_mul (K 1 1))).add (q8.const_mul (K 1 2))))).add
    (q8.mul (((q3.const_mul (K 2 0)).add (q6.const_mul (K 2 1))).add (q8.const_mul (K 2 2))))).const_mul (1 / 2)
  have ek : ∀ s, ![x s 3, x s 6, x s 8] ⬝ᵥ (K *ᵥ ![x s 3, x s 6, x s 8]) =
      x s 3 * (K 0 0 * x s 3 + K 0 1 * x s 6 + K 0 2 * x s 8) + x s 6 * (K 1 0 * x s 3 + K 1 1 * x s 6 + K 1 2 * x s 8) +
      x s 8 * (K 2 0 * x s 3 + K 2 1 * x s 6 + K 2 2 * x s 8) := by
    intro s
    simp only [dotProduct, Matrix.mulVec, Fin.sum_univ_three]
    simp
  simp only [ek]
  refine (D.add D').congr_deriv ?_
  rw [hms 1 0, hms 2 0, hms 2 1, hks 1 0, hks 2 0, hks 2 1] at *
  simp only [Pi.add_apply, Pi.mul_apply]
  linear_combination x t 9 * e0 + x t 11 * e1 + x t 12 * e2

/-- The states of the rider lean model by name: indices into its state vector, models.py:1272. -/
theorem insert_states (x : Fin 12 → ℝ) : let z : Fin 13 → ℝ := Fin.insertNth 4 (0 : ℝ) x
    z 2 = x 2 ∧ z 3 = x 3 ∧ z 6 = x 5 ∧ z 8 = x 7 ∧ z 9 = x 8 ∧ z 11 = x 10 ∧ z 12 = x 11 := by
  refine ⟨?_, ?_, ?_, ?_, ?_, ?_, ?_⟩ <;> rfl

theorem insert_inputs (T : Fin 3 → ℝ) : let z : Fin 4 → ℝ := Fin.insertNth 1 (0 : ℝ) T
    z 0 = T 0 ∧ z 2 = T 1 ∧ z 3 = T 2 := by
  refine ⟨?_, ?_, ?_⟩ <;> rfl

/-- **C105.** At rest, the rider lean model is passive: there is a quadratic potential of roll `q4`,
steer `q7` and lean `q9`, the same for all motions, such that in every motion the kinetic energy
of the lateral motion plus the potential changes by the power of the three torques and what the
damper of the rider takes, and by nothing else. -/
theorem C105_energy (pitch : ℝ → ℝ → ℝ → ℝ → ℝ → ℝ → ℝ → ℝ) (junk : ℕ → ℝ) (D : Dict SVal) (lam w c : ℝ)
    (h : LeanUsable pitch (valueIn D) lam w c) (hv : valueIn D "v" = 0) :
    ∃ K : Matrix (Fin 3) (Fin 3) ℝ, K.IsSymm ∧ ∀ (x : ℝ → Fin 12 → ℝ) (T : ℝ → Fin 3 → ℝ),
      let AB := leanOf pitch (generatedLinear pitch junk) D
      let P := LeanPar.of (valueIn D)
      (∀ t, HasDerivAt x (AB.1 *ᵥ x t + AB.2 *ᵥ T t) t) →
      ∀ t, HasDerivAt (fun s => P.energy lam w c (x s 8) (deriv (fun r => x r 2) s) (x s 10) (x s 11) +
        1 / 2 * (![x s 3, x s 5, x s 7] ⬝ᵥ (K *ᵥ ![x s 3, x s 5, x s 7])))
        (T t 0 * x t 8 + T t 1 * x t 10 + T t 2 * x t 11 - P.c9 * x t 11 ^ 2) t := by
  refine ⟨restStiffness (LeanPar.of (valueIn D)) lam, restStiffness_symm _ _, ?_⟩
  intro x T AB P hx t
  have hm := (leanOf_motion_iff pitch junk D lam w c h x T).1 hx
  rw [hv, neg_zero, zero_div] at hm
  exact motion_energy h.stands h.wheelbase hm t

/-! ### A rider who does not lean -/

/-- The bicycle with the benchmark parameters `p` is the one with the parameters `P`, with the
rider attached to the rear frame: same geometry and wheels, same mass, first moments and moments
of inertia about the rear contact point. -/
structure Spec.SameBicycle (P : LeanPar) (lam w c : ℝ) (p : Bench) : Prop where
  geometry : p.w = w ∧ p.c = c ∧ p.lam = lam
  rearWheel : p.rR = P.rr ∧ p.mR = P.md ∧ p.IRxx = P.id11 ∧ p.IRyy = P.id22
  frontWheel : p.rF = P.rf ∧ p.mF = P.mf ∧ p.IFxx = P.if11 ∧ p.IFyy = P.if22
  rear : (planarBody p.mB p.xB p.zB p.IBxx 0 p.IBxz p.IBzz).moments =
    (P.rearFrame lam).moments + P.rider.body.moments
  front : (planarBody p.mH p.xH p.zH p.IHxx 0 p.IHxz p.IHzz).moments = (P.frontFrame lam).moments

theorem locked_matrices {P : LeanPar} {lam w c : ℝ} (hs : P.Stands lam w c) (hrr : P.rr ≠ 0)
    (hrf : P.rf ≠ 0) {p : Bench} (hp : SameBicycle P lam w c p) (hA : p.mA ≠ 0) (hT : p.mT ≠ 0) (Ω : ℝ) :
    let L := toLP P lam Ω
    let k := p.canon
    let v := P.speed Ω
    ∀ i j : Fin 2, L.mass i.castSucc j.castSucc = k.M i j ∧ L.damp i.castSucc j.castSucc = v * k.C1 i j ∧
      L.stiff i.castSucc j.castSucc = P.g * k.K0 i j + v ^ 2 * k.K2 i j := by
  intro L k v
  have hr := rearBodies_eq P lam Ω
  have hf := frontBodies_eq hs Ω
  have hg := rider_eq P lam Ω
  obtain ⟨gw, gc, -⟩ := stands_eq hs Ω
  have hC : P.rearFrame lam = _ := congrArg SpinBody.body (List.cons.inj (List.cons.inj hr).2).1
  have hE : P.frontFrame lam = _ := congrArg SpinBody.body (List.cons.inj hf).1
  have bB : (p.bodyB 0).moments = (P.rearFrame lam).moments + P.rider.body.moments := hp.rear
  have bH : (p.bodyH 0).moments = (P.frontFrame lam).moments := hp.front
  obtain ⟨pw, pc, pl⟩ := hp.geometry
  obtain ⟨r1, r2, r3, r4⟩ := hp.rearWheel
  obtain ⟨f1, f2, f3, f4⟩ := hp.frontWheel
  have hA' : p.momA = ⟨L.momA.m, L.momA.sx, L.momA.sz, L.momA.Jxx, L.momA.Jxz, L.momA.Jzz⟩ := by
    rw [Bench.momA, bH, hE, Bench.bodyF, moments_planarBody, moments_planarBody, f1, f2, f3, pw]
    ext <;> simp only [LP.momA, LP.momE, LP.momF, Mom.plus, Mom.of, gw, Moments.add_m, Moments.add_sx, Moments.add_sz,
      Moments.add_Jxx, Moments.add_Jxz, Moments.add_Jzz, L] <;> simp only [toLP] <;> ring
  have hT' : p.momT = ⟨L.momT.m, L.momT.sx, L.momT.sz, L.momT.Jxx, L.momT.Jxz, L.momT.Jzz⟩ := by
    rw [Bench.momT, bB, hA', hC, hg, Bench.bodyR, moments_planarBody, moments_planarBody, moments_planarBody, r1, r2, r3]
    ext <;> simp only [LP.momT, LP.momC, LP.momD, LP.momG, Mom.plus, Mom.of, Moments.add_m, Moments.add_sx,
      Moments.add_sz, Moments.add_Jxx, Moments.add_Jxz, Moments.add_Jzz, L] <;> simp only [toLP] <;> ring
  have hmu : L.mu = c / w * cos lam := by rw [LP.mu, gw, gc]; ring
  have hkap : L.kap = cos lam / w := by rw [LP.kap, gw]; rfl
  have hwc : L.wc = (w + c) * cos lam := by
    rw [LP.wc, gw, gc]
    have : L.c = cos lam := rfl
    rw [this]; ring
  have hHR : L.HR = v * p.SR := by
    simp only [LP.HR, L, toLP, v, LeanPar.speed, Bench.SR, r4, r1]; field_simp
  have hHF : L.HF = v * p.SF := by
    simp only [LP.HF, L, toLP, v, LeanPar.speed, Bench.SF, f4, f1]; field_simp
  have hv : L.v = v := by simp only [LP.v, L, toLP, v, LeanPar.speed]; ring
  have hsn : L.s = sin lam := rfl
  have hcs : L.c = cos lam := rfl
  have hgg : L.g = P.g := rfl
  have hk : k = canonOfMoments p.momT p.momA p.w p.c p.lam p.SR p.SF := canon_eq_canonOfMoments p hA hT
  rw [hT', hA', pw, pc, pl] at hk
  intro i j
  rw [hk]
  fin_cases i <;> fin_cases j <;> refine ⟨?_, ?_, ?_⟩ <;>
    simp [LP.mass, LP.damp, LP.stiff, canonOfMoments, Moments.axisMoment, LP.lx, LP.lz, LP.ll, LP.S, hmu, hkap, hwc,
      hHR, hHF, hv, hsn, hcs, hgg, -mul_eq_mul_left_iff] <;> ring

/-- Without lean the mass matrix is not singular. -/
theorem locked_det {P : LeanPar} {lam w c : ℝ} (hs : P.Stands lam w c) (hw : w ≠ 0) (hM : P.Massive lam w c)
    (M : Mat2 ℝ) (h : ∀ i j : Fin 2, (toLP P lam 0).mass i.castSucc j.castSucc = M i j) : M.det ≠ 0 := by
  have hsym : M 1 0 = M 0 1 := by rw [← h, ← h]; rfl
  have q : ∀ a b : ℝ, a ≠ 0 ∨ b ≠ 0 → 0 < a * (M 0 0 * a + M 0 1 * b) + b * (M 1 0 * a + M 1 1 * b) := by
    intro a b hab
    have e := lean_energy_eq hs hw 0 a (c * cos lam * b / w) b 0 (by field_simp)
    have p := hM a (c * cos lam * b / w) b 0 (by field_simp) (by tauto)
    rw [e] at p
    have h00 : (toLP P lam 0).mass 0 0 = M 0 0 := h 0 0
    have h01 : (toLP P lam 0).mass 0 1 = M 0 1 := h 0 1
    have h10 : (toLP P lam 0).mass 1 0 = M 1 0 := h 1 0
    have h11 : (toLP P lam 0).mass 1 1 = M 1 1 := h 1 1
    rw [h00, h01, h10, h11] at p
    linarith
  rw [Matrix.det_fin_two]
  intro hd
  have p1 := q 1 0 (by simp)
  simp at p1
  have p2 := q (-M 0 1) (M 0 0) (Or.inr p1.ne')
  rw [hsym] at p2 hd
  have : -M 0 1 * (M 0 0 * -M 0 1 + M 0 1 * M 0 0) + M 0 0 * (M 0 1 * -M 0 1 + M 1 1 * M 0 0) = 0 := by
    linear_combination M 0 0 * hd
  linarith

/-- **C106.** If the rider does not lean, roll and steer of the rider lean model move as in the
Whipple model: for benchmark parameters `d` of the same bicycle, `(q4, q7, u4, u7)` satisfies
`x' = A x + B u` with the matrices of `ab_matrix` for those of `benchmark_par_to_canonical`. -/
theorem C106_locked_rider (pitch : ℝ → ℝ → ℝ → ℝ → ℝ → ℝ → ℝ → ℝ) (junk : ℕ → ℝ) (D : Dict SVal) (lam w c : ℝ)
    (h : LeanUsable pitch (valueIn D) lam w c)
    (d d' : Dict ℝ) (k : Canon) (p : Bench) (hk : benchmarkParToCanonical d = (d', .ok k)) (hp : p = Bench.ofDict d)
    (hsame : SameBicycle (LeanPar.of (valueIn D)) lam w c p)
    (hA : p.mH + p.mF ≠ 0) (hT : p.mR + p.mB + p.mH + p.mF ≠ 0)
    (x : ℝ → Fin 12 → ℝ) (T : ℝ → Fin 3 → ℝ)
    (hx : let AB := leanOf pitch (generatedLinear pitch junk) D
      ∀ t, HasDerivAt x (AB.1 *ᵥ x t + AB.2 *ᵥ T t) t)
    (hlean : ∀ t, x t 7 = 0) (t : ℝ) :
    HasDerivAt (fun s => ![x s 3, x s 5, x s 8, x s 10])
      (abA k.M k.C1 k.K0 k.K2 (valueIn D "v") (valueIn D "g") *ᵥ ![x t 3, x t 5, x t 8, x t 10] +
        abB k.M *ᵥ ![T t 0, T t 1]) t := by
  have hm := (leanOf_motion_iff pitch junk D lam w c h x T).1 hx
  obtain ⟨ψ', φ'', δ'', θ'', d1, d3, d4, d5, r1, eqs⟩ := motion_equations h.stands h.wheelbase hm
  obtain ⟨_, _, rfl⟩ := canonical_ok d d' k hk
  rw [← hp]
  have hv : (LeanPar.of (valueIn D)).speed (-valueIn D "v" / valueIn D "rr") = valueIn D "v" := by
    have e : (LeanPar.of (valueIn D)).rr = valueIn D "rr" := rfl
    have := h.rear
    rw [LeanPar.speed, e]; field_simp
  have hrr : (LeanPar.of (valueIn D)).rr ≠ 0 := h.rear
  have hrf : (LeanPar.of (valueIn D)).rf ≠ 0 := h.front
  have L := locked_matrices h.stands hrr hrf hsame hA hT (-valueIn D "v" / valueIn D "rr")
  have L0 := locked_matrices h.stands hrr hrf hsame hA hT 0
  have hdet := locked_det h.stands h.wheelbase h.massive p.canon.M fun i j => (L0 i j).1
  simp only [hv] at L
  have hg : (LeanPar.of (valueIn D)).g = valueIn D "g" := rfl
  rw [hg] at L
  have hθ' : ∀ s, x s 11 = 0 := by
    intro s
    have a : HasDerivAt (fun s => x s 7) (x s 11) s := (hm.rates s).2.2.2
    have e : (fun s => x s 7) = fun _ => 0 := funext hlean
    rw [e] at a
    exact a.unique (hasDerivAt_const s 0)
  have hθ'' : θ'' t = 0 := by
    have a : HasDerivAt (fun s => x s 11) (θ'' t) t := d5 t
    have e : (fun s => x s 11) = fun _ => 0 := funext hθ'
    rw [e] at a
    exact a.unique (hasDerivAt_const t 0)
  have key : p.canon.M *ᵥ ![φ'' t, δ'' t] + valueIn D "v" • p.canon.C1 *ᵥ ![x t 8, x t 10] +
      (valueIn D "g" • p.canon.K0 + valueIn D "v" ^ 2 • p.canon.K2) *ᵥ ![x t 3, x t 5] = ![T t 0, T t 1] := by
    have e0 : _ + (_ * x t 8 + _ * x t 10 + _ * x t 11) + (_ * x t 3 + _ * x t 5 + _ * x t 7) = T t 0 := eqs t 0
    have e1 : _ + (_ * x t 8 + _ * x t 10 + _ * x t 11) + (_ * x t 3 + _ * x t 5 + _ * x t 7) = T t 1 := eqs t 1
    rw [hθ'', hθ', hlean] at e0 e1
    have m00 := L 0 0
    have m01 := L 0 1
    have m10 := L 1 0
    have m11 := L 1 1
    simp only [Fin.castSucc_zero, show (1 : Fin 2).castSucc = (1 : Fin 3) from rfl] at m00 m01 m10 m11
    rw [m00.1, m00.2.1, m00.2.2, m01.1, m01.2.1, m01.2.2] at e0
    rw [m10.1, m10.2.1, m10.2.2, m11.1, m11.2.1, m11.2.2] at e1
    ext i
    fin_cases i
    · simp [Matrix.mulVec, dotProduct, Fin.sum_univ_two]
      linear_combination e0
    · simp [Matrix.mulVec, dotProduct, Fin.sum_univ_two]
      linear_combination e1
  have final := (C01_ab_matrix_realises_eom p.canon.M p.canon.C1 p.canon.K0 p.canon.K2 (valueIn D "v") (valueIn D "g")
    hdet ![x t 3, x t 5, x t 8, x t 10] ![x t 8, x t 10, φ'' t, δ'' t] ![T t 0, T t 1]).2
    ⟨rfl, rfl, by simpa [Matrix.smul_mulVec] using key⟩
  rw [← final, hasDerivAt_pi]
  intro i
  fin_cases i
  · exact (hm.rates t).1
  · exact (hm.rates t).2.2.1
  · exact d3 t
  · exact d4 t

/-! ### Non-vacuity -/

/-- Every bicycle with a rear frame or a rider, and a front frame, has benchmark parameters. -/
theorem exists_same {P : LeanPar} {lam w c : ℝ} (hs : P.Stands lam w c) (hB : P.mc + P.mg ≠ 0) :
    ∃ p : Bench, SameBicycle P lam w c p ∧ p.mB = P.mc + P.mg ∧ p.mH = P.me := by
  have hr := rearBodies_eq P lam 0
  have hf := frontBodies_eq hs 0
  have hg := rider_eq P lam 0
  have hC : P.rearFrame lam = _ := congrArg SpinBody.body (List.cons.inj (List.cons.inj hr).2).1
  have hE : P.frontFrame lam = _ := congrArg SpinBody.body (List.cons.inj hf).1
  obtain ⟨xC, hxC⟩ : ∃ y, y = (toLP P lam 0).xC := ⟨_, rfl⟩
  obtain ⟨zC, hzC⟩ : ∃ y, y = (toLP P lam 0).zC := ⟨_, rfl⟩
  obtain ⟨zG, hzG⟩ : ∃ y, y = (toLP P lam 0).zG := ⟨_, rfl⟩
  obtain ⟨Cx, hCx⟩ : ∃ y, y = (toLP P lam 0).turnxx P.ic11 P.ic31 P.ic33 := ⟨_, rfl⟩
  obtain ⟨Cz, hCz⟩ : ∃ y, y = (toLP P lam 0).turnxz P.ic11 P.ic31 P.ic33 := ⟨_, rfl⟩
  obtain ⟨Czz, hCzz⟩ : ∃ y, y = (toLP P lam 0).turnzz P.ic11 P.ic31 P.ic33 := ⟨_, rfl⟩
  rw [← hxC, ← hzC, ← hCx, ← hCz, ← hCzz] at hC
  rw [← hzG] at hg
  let m := P.mc + P.mg
  let x := (P.mc * xC + P.mg * P.l5) / m
  let z := (P.mc * zC + P.mg * zG) / m
  refine ⟨⟨w, c, lam, P.rr, P.md, P.id11, P.id22, x, z, m,
    Cx + P.mc * zC ^ 2 + (P.ig11 + P.mg * zG ^ 2) - m * z ^ 2,
    Cz - P.mc * xC * zC + (P.ig31 - P.mg * P.l5 * zG) + m * x * z,
    Czz + P.mc * xC ^ 2 + (P.ig33 + P.mg * P.l5 ^ 2) - m * x ^ 2,
    (toLP P lam 0).xE, (toLP P lam 0).zE, P.me, (toLP P lam 0).turnxx P.ie11 P.ie31 P.ie33,
    (toLP P lam 0).turnxz P.ie11 P.ie31 P.ie33, (toLP P lam 0).turnzz P.ie11 P.ie31 P.ie33,
    P.rf, P.mf, P.if11, P.if22⟩, ⟨⟨rfl, rfl, rfl⟩, ⟨rfl, rfl, rfl, rfl⟩, ⟨rfl, rfl, rfl, rfl⟩, ?_, ?_⟩, rfl, rfl⟩
  · rw [hC, hg]
    simp only [moments_planarBody]
    have hx : m * x = P.mc * xC + P.mg * P.l5 := by simp only [x, m]; field_simp
    have hz : m * z = P.mc * zC + P.mg * zG := by simp only [z, m]; field_simp
    ext
    · rfl
    · exact hx
    · exact hz
    all_goals simp only [Moments.add_Jxx, Moments.add_Jxz, Moments.add_Jzz]; ring
  · rw [hE]
    simp only [moments_planarBody]

/-- Every benchmark bicycle is described by a dictionary that is accepted. -/
theorem exists_dict (p : Bench) : ∃ d d' : Dict ℝ, benchmarkParToCanonical d = (d', .ok p.canon) ∧ p = Bench.ofDict d := by
  let d : Dict ℝ := [("w", p.w), ("c", p.c), ("lam", p.lam), ("rR", p.rR), ("mR", p.mR), ("IRxx", p.IRxx),
    ("IRyy", p.IRyy), ("xB", p.xB), ("zB", p.zB), ("mB", p.mB), ("IBxx", p.IBxx), ("IBxz", p.IBxz), ("IBzz", p.IBzz),
    ("xH", p.xH), ("zH", p.zH), ("mH", p.mH), ("IHxx", p.IHxx), ("IHxz", p.IHxz), ("IHzz", p.IHzz),
    ("rF", p.rF), ("mF", p.mF), ("IFxx", p.IFxx), ("IFyy", p.IFyy)]
  have e : p = Bench.ofDict d := by
    obtain ⟨⟩ := p
    simp [Bench.ofDict, d, Dict.getD, Dict.find?]
  have hk : ∀ key ∈ canonKeys, Dict.has d key = true := by
    intro key hk
    rw [Dict.has_iff_mem_keys]
    have : Dict.keys d = ["w", "c", "lam", "rR", "mR", "IRxx", "IRyy", "xB", "zB", "mB", "IBxx", "IBxz", "IBzz",
      "xH", "zH", "mH", "IHxx", "IHxz", "IHzz", "rF", "mF", "IFxx", "IFyy"] := rfl
    rw [this]
    revert key
    decide
  have := canonical_of_keys d hk
  rw [← e] at this
  exact ⟨d, _, this, e⟩

/-- Torques with which the bicycle falls over, the rider not leaning: `q4 = exp t`. -/
theorem exists_motion (pitch : ℝ → ℝ → ℝ → ℝ → ℝ → ℝ → ℝ → ℝ) (junk : ℕ → ℝ) (D : Dict SVal) (lam w c : ℝ)
    (h : LeanUsable pitch (valueIn D) lam w c) :
    ∃ (x : ℝ → Fin 12 → ℝ) (T : ℝ → Fin 3 → ℝ),
      (let AB := leanOf pitch (generatedLinear pitch junk) D
       ∀ t, HasDerivAt x (AB.1 *ᵥ x t + AB.2 *ᵥ T t) t) ∧ (∀ t, x t 7 = 0) ∧ ∀ t, x t 3 = exp t := by
  let L := toLP (LeanPar.of (valueIn D)) lam (-valueIn D "v" / valueIn D "rr")
  let x : ℝ → Fin 12 → ℝ := fun t => ![0, 0, 0, exp t, 0, 0, 0, 0, exp t, 0, 0, 0]
  let T : ℝ → Fin 3 → ℝ := fun t i => L.mass i 0 * exp t + L.damp i 0 * exp t + L.stiff i 0 * exp t
  refine ⟨x, T, (leanOf_motion_iff pitch junk D lam w c h x T).2 ?_, fun t => rfl, fun t => rfl⟩
  have c0 : ∀ t, HasDerivAt (fun _ : ℝ => (0 : ℝ)) 0 t := fun t => hasDerivAt_const t 0
  have s0 : ∀ Ω, (LeanPar.of (valueIn D)).speed Ω * 0 = 0 := fun Ω => mul_zero _
  have s1 : (LeanPar.of (valueIn D)).speed 0 = 0 := by simp [LeanPar.speed]
  refine ⟨fun t => ?_, fun t => ?_, fun t => c0 t, fun t => ⟨Real.hasDerivAt_exp t, c0 t, c0 t, c0 t⟩,
    ⟨fun t => ?_, fun t => ?_⟩, fun t => ?_, fun _ => 0, fun _ => 0, exp, fun _ => 0, fun _ => 0,
    c0, c0, Real.hasDerivAt_exp, c0, c0, fun t => ?_⟩
  · change HasDerivAt (fun _ => (0 : ℝ)) ((LeanPar.of (valueIn D)).speed 0) t
    rw [s1]; exact c0 t
  · change HasDerivAt (fun _ => (0 : ℝ)) (-((LeanPar.of (valueIn D)).speed 0) / _) t
    rw [s1, neg_zero, zero_div]; exact c0 t
  · change HasDerivAt (fun _ => (0 : ℝ)) (_ * 0) t
    rw [mul_zero]; exact c0 t
  · change HasDerivAt (fun s => lateralFront w c lam 0 (exp s) 0 0 ![w, 0, 0]) (_ * omegaFront lam (exp t) 0 0 2) t
    have e : (fun s => lateralFront w c lam 0 (exp s) 0 0 ![w, 0, 0]) = fun _ => 0 := by
      funext s; rw [lateralFront, velFront_one]; ring
    rw [e, omegaFront_eq]
    simpa using c0 t
  · change HasDerivAt (fun _ => _ * (0 : ℝ)) 0 t
    simpa using c0 t
  · refine (lean_balance_iff h.stands h.wheelbase _ _ _ _ _ rfl ?_ ?_).2 fun i => ?_
    · change w * 0 = (_ * 0 + c * 0) * _
      ring
    · change w * 0 = (_ * 0 + c * 0) * _
      ring
    · have e : ![T t 0, T t 1, T t 2] i = T t i := by fin_cases i <;> rfl
      refine Eq.trans ?_ e.symm
      change (L.mass i 0 * exp t + L.mass i 1 * 0 + L.mass i 2 * 0) + (L.damp i 0 * exp t + L.damp i 1 * 0 +
        L.damp i 2 * 0) + (L.stiff i 0 * exp t + L.stiff i 1 * 0 + L.stiff i 2 * 0) = _
      simp only [T]; ring

end BP
