import Mathlib.Tactic.FieldSimp
import Mathlib.Tactic.Ring
import Mathlib.Tactic.Linarith
import Mathlib.Tactic.LinearCombination
import Verif.Model.Bicycle
import Verif.Spec.RigidBody

/-! Helper lemmas about `benchmark_par_to_canonical`. -/

set_option linter.unusedSimpArgs false

namespace BP
open Real Matrix Spec

namespace Bench
variable (p : Bench)

/-- The rear wheel, frame, fork and front wheel as bodies (`IByy`, `IHyy` free). -/
noncomputable def bodyR : Body := planarBody p.mR 0 (-p.rR) p.IRxx p.IRyy 0 p.IRxx
noncomputable def bodyB (IByy : ℝ) : Body := planarBody p.mB p.xB p.zB p.IBxx IByy p.IBxz p.IBzz
noncomputable def bodyH (IHyy : ℝ) : Body := planarBody p.mH p.xH p.zH p.IHxx IHyy p.IHxz p.IHzz
noncomputable def bodyF : Body := planarBody p.mF p.w (-p.rF) p.IFxx p.IFyy 0 p.IFxx

/-- Moments of the front assembly. -/
noncomputable def momA : Moments := (p.bodyH 0).moments + p.bodyF.moments
/-- Moments of the whole bicycle. -/
noncomputable def momT : Moments := p.bodyR.moments + (p.bodyB 0).moments + p.momA

end Bench

theorem moments_planarBody (m x z Ixx Iyy Ixz Izz : ℝ) :
    (planarBody m x z Ixx Iyy Ixz Izz).moments =
      ⟨m, m * x, m * z, Ixx + m * z ^ 2, Ixz - m * x * z, Izz + m * x ^ 2⟩ := by
  ext <;> simp [Body.moments, planarBody, Body.firstMoment, Body.originInertia, dotProduct,
    Fin.sum_univ_three, vecMulVec, Matrix.one_apply, -mul_eq_mul_left_iff] <;> ring

theorem momA_eq (p : Bench) : p.momA = ⟨p.mA, p.xH * p.mH + p.w * p.mF, p.zH * p.mH - p.rF * p.mF,
    p.IHxx + p.IFxx + p.mH * p.zH ^ 2 + p.mF * p.rF ^ 2,
    p.IHxz - p.mH * p.xH * p.zH + p.mF * p.w * p.rF,
    p.IHzz + p.IFxx + p.mH * p.xH ^ 2 + p.mF * p.w ^ 2⟩ := by
  unfold Bench.momA Bench.bodyH Bench.bodyF
  rw [moments_planarBody, moments_planarBody]
  ext <;> simp [Bench.mA] <;> ring

theorem momT_eq (p : Bench) : p.momT = ⟨p.mT, p.xB * p.mB + p.xH * p.mH + p.w * p.mF,
    -p.rR * p.mR + p.zB * p.mB + p.zH * p.mH - p.rF * p.mF, p.ITxx, p.ITxz, p.ITzz⟩ := by
  unfold Bench.momT Bench.bodyR Bench.bodyB
  rw [moments_planarBody, moments_planarBody, momA_eq]
  ext <;> simp [Bench.mA, Bench.mT, Bench.ITxx, Bench.ITxz, Bench.ITzz, Bench.IRzz, Bench.IFzz] <;>
    ring

/-- First moment of the front assembly about the steer axis. -/
noncomputable def Moments.axisMoment (A : Moments) (w c lam : ℝ) : ℝ :=
  A.sx * cos lam - (w + c) * A.m * cos lam - A.sz * sin lam

section
variable (p : Bench)

theorem mA_mul_xA (h : p.mA ≠ 0) : p.mA * p.xA = p.momA.sx := by
  rw [momA_eq]; simp only [Bench.xA]; field_simp

theorem mA_mul_zA (h : p.mA ≠ 0) : p.mA * p.zA = p.momA.sz := by
  rw [momA_eq]; simp only [Bench.zA]; field_simp

theorem mT_mul_xT (h : p.mT ≠ 0) : p.mT * p.xT = p.momT.sx := by
  rw [momT_eq]; simp only [Bench.xT]; field_simp

theorem mT_mul_zT (h : p.mT ≠ 0) : p.mT * p.zT = p.momT.sz := by
  rw [momT_eq]; simp only [Bench.zT]; field_simp

theorem momA_Jxx (h : p.mA ≠ 0) : p.momA.Jxx = p.IAxx + p.mA * p.zA ^ 2 := by
  have hz := mA_mul_zA p h
  rw [momA_eq] at *
  simp only [Bench.IAxx] at *
  simp only [Bench.mA] at *
  linear_combination (-2 * p.zA) * hz

theorem momA_Jxz (h : p.mA ≠ 0) : p.momA.Jxz = p.IAxz - p.mA * p.xA * p.zA := by
  have hz := mA_mul_zA p h
  have hx := mA_mul_xA p h
  rw [momA_eq] at *
  simp only [Bench.IAxz] at *
  simp only [Bench.mA] at *
  linear_combination p.zA * hx + p.xA * hz

theorem momA_Jzz (h : p.mA ≠ 0) : p.momA.Jzz = p.IAzz + p.mA * p.xA ^ 2 := by
  have hx := mA_mul_xA p h
  rw [momA_eq] at *
  simp only [Bench.IAzz, Bench.IFzz] at *
  simp only [Bench.mA] at *
  linear_combination (-2 * p.xA) * hx

theorem mA_mul_uA (h : p.mA ≠ 0) : p.mA * p.uA = Moments.axisMoment p.momA p.w p.c p.lam := by
  have hx := mA_mul_xA p h
  have hz := mA_mul_zA p h
  have hm : p.momA.m = p.mA := by rw [momA_eq]
  simp only [Bench.uA, Moments.axisMoment, ← hx, ← hz, hm]
  ring

theorem SA_eq (h : p.mA ≠ 0) (hT : p.mT ≠ 0) :
    p.SA = Moments.axisMoment p.momA p.w p.c p.lam + p.mu * p.momT.sx := by
  rw [Bench.SA, mA_mul_uA p h, mul_assoc, mT_mul_xT p hT]

theorem IAlx_eq (h : p.mA ≠ 0) : p.IAlx =
    sin p.lam * p.momA.Jxx + cos p.lam * p.momA.Jxz + (p.w + p.c) * cos p.lam * p.momA.sz := by
  rw [momA_Jxx p h, momA_Jxz p h, ← mA_mul_zA p h, Bench.IAlx, Bench.uA]; ring

theorem IAlz_eq (h : p.mA ≠ 0) : p.IAlz =
    sin p.lam * p.momA.Jxz + cos p.lam * p.momA.Jzz - (p.w + p.c) * cos p.lam * p.momA.sx := by
  rw [momA_Jzz p h, momA_Jxz p h, ← mA_mul_xA p h, Bench.IAlz, Bench.uA]; ring

theorem IAll_eq (h : p.mA ≠ 0) : p.IAll =
    sin p.lam ^ 2 * p.momA.Jxx + 2 * sin p.lam * cos p.lam * p.momA.Jxz +
      cos p.lam ^ 2 * p.momA.Jzz + (p.w + p.c) ^ 2 * cos p.lam ^ 2 * p.momA.m -
      2 * (p.w + p.c) * cos p.lam ^ 2 * p.momA.sx +
      2 * (p.w + p.c) * sin p.lam * cos p.lam * p.momA.sz := by
  have hm : p.momA.m = p.mA := by rw [momA_eq]
  rw [momA_Jxx p h, momA_Jzz p h, momA_Jxz p h, ← mA_mul_xA p h, ← mA_mul_zA p h, hm, Bench.IAll,
    Bench.uA]; ring

end

/-- The canonical matrices from the mass moments of the whole bicycle (`T`) and
of the front assembly (`A`), the geometry and the wheels' spin ratios. -/
noncomputable def canonOfMoments (T A : Moments) (w c lam SR SF : ℝ) : Canon :=
  let μ := c / w * cos lam
  let κ := cos lam / w
  let lx := sin lam * A.Jxx + cos lam * A.Jxz + (w + c) * cos lam * A.sz
  let lz := sin lam * A.Jxz + cos lam * A.Jzz - (w + c) * cos lam * A.sx
  let ll := sin lam ^ 2 * A.Jxx + 2 * sin lam * cos lam * A.Jxz + cos lam ^ 2 * A.Jzz +
    (w + c) ^ 2 * cos lam ^ 2 * A.m - 2 * (w + c) * cos lam ^ 2 * A.sx +
    2 * (w + c) * sin lam * cos lam * A.sz
  let S := Moments.axisMoment A w c lam + μ * T.sx
  { M := !![T.Jxx, lx + μ * T.Jxz; lx + μ * T.Jxz, ll + 2 * μ * lz + μ ^ 2 * T.Jzz]
    C1 := !![0, μ * (SR + SF) + SF * cos lam + κ * T.Jxz - μ * T.sz;
             -(μ * (SR + SF) + SF * cos lam), κ * lz + μ * (S + κ * T.Jzz)]
    K0 := !![T.sz, -S; -S, -S * sin lam]
    K2 := !![0, κ * (SR + SF - T.sz); 0, κ * (S + SF * sin lam)] }

theorem canon_eq_canonOfMoments (p : Bench) (hA : p.mA ≠ 0) (hT : p.mT ≠ 0) :
    p.canon = canonOfMoments p.momT p.momA p.w p.c p.lam p.SR p.SF := by
  have h1 : p.momT.Jxx = p.ITxx := by rw [momT_eq]
  have h2 : p.momT.Jxz = p.ITxz := by rw [momT_eq]
  have h3 : p.momT.Jzz = p.ITzz := by rw [momT_eq]
  have hz : p.mT * p.zT = p.momT.sz := mT_mul_zT p hT
  unfold Bench.canon canonOfMoments
  congr 1
  · ext i j
    fin_cases i <;> fin_cases j <;>
      simp [Bench.M, IAlx_eq p hA, IAlz_eq p hA, IAll_eq p hA, h1, h2, h3, Bench.mu]
  · ext i j
    fin_cases i <;> fin_cases j <;>
      simp [Bench.C1, IAlx_eq p hA, IAlz_eq p hA, IAll_eq p hA, h1, h2, h3, Bench.mu, SA_eq p hA hT,
        mul_assoc, hz, Bench.ST] <;> ring
  · ext i j
    fin_cases i <;> fin_cases j <;> simp [Bench.K0, SA_eq p hA hT, hz, Bench.mu]
  · ext i j
    fin_cases i <;> fin_cases j <;>
      simp [Bench.K2, SA_eq p hA hT, hz, Bench.mu, Bench.ST] <;> ring

end BP
