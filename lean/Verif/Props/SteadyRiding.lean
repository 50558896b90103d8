import Verif.Props.Jacobian
import Verif.Props.LeanMotion

/-!
# C127: riding straight ahead is a steady motion, and the matrices describe the motions near it
-/

set_option linter.unusedSimpArgs false

namespace BP

open Matrix Real Spec EL Asymptotics

/-- Upright, straight ahead, the rider not leaning; the rear wheel spins at the rate `Ω`. -/
def Spec.ahead (lam Ω : ℝ) : Fin 13 → ℝ := ![0, 0, 0, 0, lam, 0, 0, 0, 0, 0, Ω, 0, 0]

/-- The rates of the state while the bicycle rides on like that: the rear wheel, of radius `rr`, rolls
forward, both wheels spin, everything else rests. -/
noncomputable def Spec.ridingOn (rr rf Ω : ℝ) : Fin 13 → ℝ :=
  ![-Ω * rr, 0, 0, 0, 0, Ω, 0, Ω * rr / rf, 0, 0, 0, 0, 0]

theorem ahead_tables : uprightPoly.look 35 = [(1, 1)] ∧ uprightPoly.look 494 = [(63, -1)] ∧
    uprightPoly.look 5086 = [(4163, -1)] ∧ uprightPoly.look 5094 = [(23, 1)] ∧ uprightPoly.look 5097 = [(45793, 1)] ∧
    ∀ i : Fin 13, i ≠ 0 → i ≠ 5 → i ≠ 7 → uprightPoly.look (rateCell i) = [] := by decide +kernel

theorem ahead_assigned : Nat.testBit assigned 35 = true ∧ Nat.testBit assigned 494 = true ∧
    ∀ i : Fin 13, Nat.testBit assigned (rateCell i) = true := by decide +kernel

theorem coords_ahead (lam Ω : ℝ) : coords (ahead lam Ω) = ![0, 0, 0, 0, lam, 0, 0, 0, 0] := by
  funext i; fin_cases i <;> rfl

theorem speeds_ahead (lam Ω : ℝ) : speeds (ahead lam Ω) = ![0, Ω, 0, 0] := by
  funext i; fin_cases i <;> rfl

theorem lamOf_ahead (pitch : ℝ → ℝ → ℝ → ℝ → ℝ → ℝ → ℝ → ℝ) (f : String → ℝ) (lam w c Ω : ℝ)
    (h : LeanUsable pitch f lam w c) : lamOf pitch (slotVector f) (ahead lam Ω) = lam := h.pitch

theorem rateCell_ne : ∀ i : Fin 13, rateCell i ≠ 5035 ∧ rateCell i ≠ 5084 := by decide

/-- **C127.** Riding straight ahead at any speed is a steady motion of the nonlinear equations; no
division by zero occurs there. -/
theorem C127_steady_riding (pitch : ℝ → ℝ → ℝ → ℝ → ℝ → ℝ → ℝ → ℝ) (junk : ℕ → ℝ) (f : String → ℝ)
    (lam w c Ω : ℝ) (h : LeanUsable pitch f lam w c) :
    rates lam junk (slotVector f) (ahead lam Ω) 0 = ridingOn (f "rr") (f "rf") Ω ∧
    ∀ s ∈ body, s.2.Safe (cellsAt lam junk (slotVector f) (ahead lam Ω) 0) := by
  obtain ⟨m, hm⟩ : ∃ m, m = cellsAt lam junk (slotVector f) (ahead lam Ω) 0 := ⟨_, rfl⟩
  have hm' : m = run real body (start pitch junk ![0, 0, 0, 0, lam, 0, 0, 0, 0] ![0, Ω, 0, 0] 0 (slotVector f)) := by
    rw [hm]
    have e := cellsAt_eq pitch junk (slotVector f) (ahead lam Ω) 0
    rw [lamOf_ahead pitch f lam w c Ω h, coords_ahead, speeds_ahead] at e
    exact e
  obtain ⟨heq, hup, hL⟩ := upright_cells pitch junk f lam w c Ω h.pitch h.stands h.wheelbase h.front m hm'
  obtain ⟨-, -, hdet⟩ := upright_mass hup heq
  have hD : m 1001 ≠ 0 := by
    rw [hdet, hL, drive_eq]
    exact mul_ne_zero h.drive (massive_det h.stands h.wheelbase h.massive Ω)
  have hf := fits_cells hup (m 1001) hD body (fun _ h => h) inputs assigned body_defined inputs_fin heq
    (fun _ => rfl)
  obtain ⟨t1, t2, t3, t4, t5, t6⟩ := ahead_tables
  obtain ⟨a1, a2, a3⟩ := ahead_assigned
  have v7 : uprightVal m (m 1001) 7 = m 5082 := uprightVal_var m _ (7, 5082) (by decide)
  have v23 : uprightVal m (m 1001) 23 = m 5041 := uprightVal_var m _ (23, 5041) (by decide)
  have v181 : uprightVal m (m 1001) 181 = m 5083 := uprightVal_var m _ (181, 5083) (by decide)
  have v3 : uprightVal m (m 1001) 3 = (memLP m).w := by simp [uprightVal]
  have v11 : uprightVal m (m 1001) 11 = (m 5082)⁻¹ := by simp [uprightVal]
  have u : m 5041 = Ω := by have := congrArg LP.u6 hL; exact this
  have rr : m 5083 = f "rr" := by have := congrArg LP.rr hL; exact this
  have rf : m 5082 = f "rf" := by have := congrArg LP.rf hL; exact this
  have m35 : m 35 = 1 := by
    rw [(hf 35 a1).table (by decide) (by decide), t1]; simp [mono_one]
  have m494 : m 494 ≠ 0 := by
    rw [(hf 494 a2).table (by decide) (by decide), t2, peval_cons, peval_nil,
      show 63 = 3 * 3 * 7 from rfl, mono_mul, mono_mul, mono_prime _ (show Nat.Prime 3 by norm_num),
      mono_prime _ (show Nat.Prime 7 by norm_num), v3, v7]
    have := hup.w
    have := hup.rf
    simp_all
  refine ⟨?_, ?_⟩
  · funext i
    rw [rates_eq, ← hm, (hf _ (a3 i)).table (rateCell_ne i).1 (rateCell_ne i).2]
    by_cases i0 : i = 0
    · subst i0
      rw [show rateCell (0 : Fin 13) = 5086 from rfl, t3, peval_cons, peval_nil, show 4163 = 23 * 181 from rfl, mono_mul,
        mono_prime _ (show Nat.Prime 23 by norm_num), mono_prime _ (show Nat.Prime 181 by norm_num), v23, v181, u, rr]
      simp [ridingOn]
    by_cases i5 : i = 5
    · subst i5
      rw [show rateCell (5 : Fin 13) = 5094 from rfl, t4, peval_cons, peval_nil,
        mono_prime _ (show Nat.Prime 23 by norm_num), v23, u]
      simp [ridingOn]
    by_cases i7 : i = 7
    · subst i7
      rw [show rateCell (7 : Fin 13) = 5097 from rfl, t5, peval_cons, peval_nil, show 45793 = 11 * 23 * 181 from rfl,
        mono_mul, mono_mul, mono_prime _ (show Nat.Prime 11 by norm_num), mono_prime _ (show Nat.Prime 23 by norm_num),
        mono_prime _ (show Nat.Prime 181 by norm_num), v11, v23, v181, u, rr, rf]
      simp [ridingOn]
      ring
    · rw [t6 i i0 i5 i7, peval_nil]
      fin_cases i <;> first | rfl | contradiction
  · rw [← hm]
    refine (safe_iff heq).mpr ⟨by rw [m35]; norm_num, m494, hD⟩

/-- **C127.** The matrices that `eval_linear` returns for that motion are the linear part of the nonlinear
equations: the error is small compared to the deviation of the state and to the torques. -/
theorem C127_small_motions (pitch : ℝ → ℝ → ℝ → ℝ → ℝ → ℝ → ℝ → ℝ) (junk : ℕ → ℝ) (f : String → ℝ)
    (lam w c Ω : ℝ) (h : LeanUsable pitch f lam w c) :
    let R := evalLinear real pitch junk ![0, 0, 0, 0, lam, 0, 0, 0, 0] ![0, Ω, 0, 0] 0 (slotVector f)
    (fun δ : (Fin 13 → ℝ) × (Fin 4 → ℝ) =>
      rates lam junk (slotVector f) (ahead lam Ω + δ.1) δ.2 -
        (ridingOn (f "rr") (f "rf") Ω + (R.A *ᵥ δ.1 + R.B *ᵥ δ.2))) =o[nhds 0] fun δ => δ := by
  intro R
  obtain ⟨e, hs⟩ := C127_steady_riding pitch junk f lam w c Ω h
  have hl := lamOf_ahead pitch f lam w c Ω h
  obtain ⟨L, hL, eL⟩ := C126_jacobian pitch junk (slotVector f) (ahead lam Ω) 0 (by rw [hl]; exact hs)
  rw [hl] at hL
  rw [coords_ahead, speeds_ahead] at eL
  rw [hasFDerivAt_iff_isLittleO_nhds_zero] at hL
  refine hL.congr_left fun δ => ?_
  obtain ⟨δx, δr⟩ := δ
  rw [eL]
  simp only [Prod.mk_add_mk, zero_add, e]
  abel

/-- A bicycle that rides at any speed. -/
example (Ω : ℝ) : ∃ (f : String → ℝ) (w c : ℝ), LeanUsable (fun _ _ _ _ _ _ _ => 0) f 0 w c ∧ f "mg" = 70 ∧
    ∀ s ∈ body, s.2.Safe (cellsAt (lamOf (fun _ _ _ _ _ _ _ => 0) (slotVector f) (ahead 0 Ω)) 0 (slotVector f)
      (ahead 0 Ω) 0) := by
  obtain ⟨f, w, c, h, -, -, -, h70⟩ := example_leanUsable 0
  exact ⟨f, w, c, h, h70, (C127_steady_riding _ 0 f 0 w c Ω h).2⟩

end BP
