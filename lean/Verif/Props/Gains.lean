import Verif.Props.Feedback
import Verif.Props.Stability

/-!
# C144: the gains of the feedback model can give the bicycle any linear dynamics
-/

set_option linter.unusedSimpArgs false

namespace BP

open Real Matrix Spec

/-! ## Specification -/

/-- The eight gains as keyword arguments: row 0 roll torque, row 1 steer torque; columns roll angle, steer angle, roll rate,
steer rate. -/
def Spec.gainArgs (G : Matrix (Fin 2) (Fin 4) ℝ) : Dict OVal :=
  [("kTphi_phi", .num ⟨.pyFloat, G 0 0⟩), ("kTphi_del", .num ⟨.pyFloat, G 0 1⟩),
   ("kTphi_phid", .num ⟨.pyFloat, G 0 2⟩), ("kTphi_deld", .num ⟨.pyFloat, G 0 3⟩),
   ("kTdel_phi", .num ⟨.pyFloat, G 1 0⟩), ("kTdel_del", .num ⟨.pyFloat, G 1 1⟩),
   ("kTdel_phid", .num ⟨.pyFloat, G 1 2⟩), ("kTdel_deld", .num ⟨.pyFloat, G 1 3⟩)]

/-- The state matrix of a motion whose roll and steer accelerations are `R x`. -/
def Spec.accelerations (R : Matrix (Fin 2) (Fin 4) ℝ) : Matrix (Fin 4) (Fin 4) ℝ :=
  !![0, 0, 1, 0; 0, 0, 0, 1; R 0 0, R 0 1, R 0 2, R 0 3; R 1 0, R 1 1, R 1 2, R 1 3]

/-! ## The call with gains -/

theorem gainArgs_nodup (G : Matrix (Fin 2) (Fin 4) ℝ) : (gainArgs G).keys.Nodup := by
  simp only [gainArgs, Dict.keys, List.map_cons, List.map_nil]
  decide

theorem gainArgs_num (G : Matrix (Fin 2) (Fin 4) ℝ) (k : String) (o : OVal) (h : (k, o) ∈ gainArgs G) :
    ∃ x, o = .num x := by
  simp only [gainArgs, List.mem_cons, Prod.mk.injEq, List.not_mem_nil, or_false] at h
  rcases h with h | h | h | h | h | h | h | h <;> exact ⟨_, h.2⟩

theorem gains_given (stored : Dict SVal) (G : Matrix (Fin 2) (Fin 4) ℝ) (hG : ∀ k ∈ gainNames, stored.has k = true) :
    gainsOf (evaluatedAt stored (gainArgs G) 0) = G := by
  have key : ∀ k x, k ∈ gainNames → (gainArgs G).find? k = some (.num x) →
      Dict.getD (nums (evaluatedAt stored (gainArgs G) 0)) k 0 = x.val := by
    intro k x hk hx
    obtain ⟨y, hy⟩ := (Dict.has_iff_exists _ _).1 (hG k hk)
    unfold Dict.getD
    rw [find?_nums, find?_evaluatedAt, hy, hx]
    rfl
  unfold gainsOf
  rw [key "kTphi_phi" ⟨.pyFloat, G 0 0⟩ (by decide) (by simp [gainArgs, Dict.find?]),
    key "kTphi_del" ⟨.pyFloat, G 0 1⟩ (by decide) (by simp [gainArgs, Dict.find?]),
    key "kTphi_phid" ⟨.pyFloat, G 0 2⟩ (by decide) (by simp [gainArgs, Dict.find?]),
    key "kTphi_deld" ⟨.pyFloat, G 0 3⟩ (by decide) (by simp [gainArgs, Dict.find?]),
    key "kTdel_phi" ⟨.pyFloat, G 1 0⟩ (by decide) (by simp [gainArgs, Dict.find?]),
    key "kTdel_del" ⟨.pyFloat, G 1 1⟩ (by decide) (by simp [gainArgs, Dict.find?]),
    key "kTdel_phid" ⟨.pyFloat, G 1 2⟩ (by decide) (by simp [gainArgs, Dict.find?]),
    key "kTdel_deld" ⟨.pyFloat, G 1 3⟩ (by decide) (by simp [gainArgs, Dict.find?])]
  ext i j
  fin_cases i <;> fin_cases j <;> rfl

theorem open_loop_given (stored : Dict SVal) (G : Matrix (Fin 2) (Fin 4) ℝ) :
    stateSpaceOf (evaluatedAt stored (gainArgs G) 0) = stateSpaceOf stored := by
  have key : ∀ k ∈ whippleKeys, Dict.getD (nums (evaluatedAt stored (gainArgs G) 0)) k 0 = Dict.getD (nums stored) k 0 := by
    intro k hk
    have hno : (gainArgs G).find? k = none := by
      rw [Dict.find?_eq_none_iff]
      have : (gainArgs G).keys = gainNames := rfl
      rw [this]
      exact (by decide : ∀ k ∈ whippleKeys, k ∉ gainNames) k hk
    unfold Dict.getD
    rw [find?_nums, find?_nums, find?_evaluatedAt, hno]
    cases stored.find? k <;> rfl
  have hb : Bench.ofDict (nums (evaluatedAt stored (gainArgs G) 0)) = Bench.ofDict (nums stored) := by
    simp only [Bench.ofDict]
    rw [key "w" (by decide), key "c" (by decide), key "lam" (by decide), key "rR" (by decide), key "mR" (by decide),
      key "IRxx" (by decide), key "IRyy" (by decide), key "xB" (by decide), key "zB" (by decide), key "mB" (by decide),
      key "IBxx" (by decide), key "IBxz" (by decide), key "IBzz" (by decide), key "xH" (by decide), key "zH" (by decide),
      key "mH" (by decide), key "IHxx" (by decide), key "IHxz" (by decide), key "IHzz" (by decide), key "rF" (by decide),
      key "mF" (by decide), key "IFxx" (by decide), key "IFyy" (by decide)]
  unfold stateSpaceOf
  rw [hb, key "v" (by decide), key "g" (by decide)]

theorem call_with_gains (h : Heap) (s : ℕ) (stored : Dict SVal) (G : Matrix (Fin 2) (Fin 4) ℝ)
    (hs : h[s]? = some (stored.map fun e => (e.1, .num e.2))) (hD : ∀ k ∈ feedbackKeys, stored.has k = true) :
    ∃ ext, formFeedbackMatrices s (gainArgs G) h = (.ok (.one
      ((stateSpaceOf stored).1 - (stateSpaceOf stored).2 * G, (stateSpaceOf stored).2)), h ++ ext) := by
  have hsw : ∀ k, ¬ Swept stored (gainArgs G) k := by
    rintro k ⟨_, ys, hy⟩
    obtain ⟨x, hx⟩ := gainArgs_num G k _ hy
    cases hx
  have hc : Compatible stored (gainArgs G) 0 := by
    refine ⟨fun k _ hk => ?_, fun k ys _ hk => ?_⟩ <;>
    · obtain ⟨x, hx⟩ := gainArgs_num G k _ hk
      cases hx
  obtain ⟨ext, he⟩ := C67_closed_loop h s stored (gainArgs G) 0 hs (gainArgs_nodup G) hc hD
    (fun ⟨k, _, hk⟩ => absurd hk (hsw k)) (fun ⟨k, _, hk⟩ => absurd hk (hsw k))
  rw [if_neg (by rintro ⟨k, hk⟩; exact hsw k hk)] at he
  refine ⟨ext, ?_⟩
  rw [he]
  unfold closedLoopOf
  rw [open_loop_given, gains_given stored G fun k hk => hD k (List.mem_append.2 (Or.inr hk))]

/-! ## The theorems -/

/-- **C144.** For every bicycle, speed and gravity with an invertible mass matrix, and for any roll and steer accelerations
`R x` that are wanted, there is exactly one choice of the eight gains for which the state matrix that
`form_state_space_matrices` returns is that of the wanted motion. -/
theorem C144_gains_assign (h : Heap) (s : ℕ) (stored : Dict SVal)
    (hs : h[s]? = some (stored.map fun e => (e.1, .num e.2))) (hD : ∀ k ∈ feedbackKeys, stored.has k = true)
    (hM : (Bench.ofDict (nums stored)).canon.M.det ≠ 0) (R : Matrix (Fin 2) (Fin 4) ℝ) :
    ∃! G : Matrix (Fin 2) (Fin 4) ℝ, ∃ B ext,
      formFeedbackMatrices s (gainArgs G) h = (.ok (.one (accelerations R, B)), h ++ ext) := by
  set c := (Bench.ofDict (nums stored)).canon with hc
  have hl := mul_invM ℝ c.M hM
  have hr := invM_mul ℝ c.M hM
  have hA : ∃ P : Matrix (Fin 2) (Fin 4) ℝ, (stateSpaceOf stored).1 = accelerations P := by
    refine ⟨fun i j => (stateSpaceOf stored).1 (i.natAdd 2) j, ?_⟩
    ext i j
    fin_cases i <;> fin_cases j <;> rfl
  obtain ⟨P, hP⟩ := hA
  have hB : ∀ G : Matrix (Fin 2) (Fin 4) ℝ, accelerations P - (stateSpaceOf stored).2 * G =
      accelerations (P - invM c.M * G) := by
    intro G
    have hB2 : (stateSpaceOf stored).2 = abB c.M := rfl
    rw [hB2]
    ext i j
    fin_cases i <;> fin_cases j <;>
      simp [accelerations, abB, Matrix.mul_apply, Matrix.vecMul, dotProduct, Fin.sum_univ_two, Matrix.sub_apply]
  have hinj : ∀ Q Q' : Matrix (Fin 2) (Fin 4) ℝ, accelerations Q = accelerations Q' → Q = Q' := by
    intro Q Q' hq
    ext i j
    have := congrFun (congrFun hq (i.natAdd 2)) j
    fin_cases i <;> fin_cases j <;> simpa [accelerations] using this
  refine ⟨c.M * (P - R), ?_, ?_⟩
  · obtain ⟨ext, he⟩ := call_with_gains h s stored (c.M * (P - R)) hs hD
    refine ⟨(stateSpaceOf stored).2, ext, ?_⟩
    rw [hP, hB, ← Matrix.mul_assoc, hl, Matrix.one_mul, sub_sub_cancel] at he
    exact he
  · rintro G ⟨B, ext, he⟩
    obtain ⟨ext', he'⟩ := call_with_gains h s stored G hs hD
    rw [he'] at he
    simp only [Prod.mk.injEq, Except.ok.injEq, Stack.one.injEq] at he
    have h1 := he.1.1
    rw [hP, hB] at h1
    have h2 := hinj _ _ h1
    have h3 : invM c.M * G = P - R := by rw [← h2]; abel
    rw [← h3, ← Matrix.mul_assoc, hr, Matrix.one_mul]

/-- **C144.** So for every bicycle with an invertible mass matrix, whatever the speed, there are gains that make it stable: all
eigenvalues of the returned state matrix have negative real parts. -/
theorem C144_gains_stabilise (h : Heap) (s : ℕ) (stored : Dict SVal)
    (hs : h[s]? = some (stored.map fun e => (e.1, .num e.2))) (hD : ∀ k ∈ feedbackKeys, stored.has k = true)
    (hM : (Bench.ofDict (nums stored)).canon.M.det ≠ 0) :
    ∃ G A B ext, formFeedbackMatrices s (gainArgs G) h = (.ok (.one (A, B)), h ++ ext) ∧
      ∀ l : ℂ, IsEigenvalue (toC A) l → l.re < 0 := by
  obtain ⟨G, ⟨B, ext, he⟩, -⟩ := C144_gains_assign h s stored hs hD hM !![-1, 0, -2, 0; 0, -1, 0, -2]
  refine ⟨G, _, B, ext, he, ?_⟩
  rintro l ⟨x, hx, hl⟩
  have h0 := congrFun hl 0
  have h1 := congrFun hl 1
  have h2 := congrFun hl 2
  have h3 := congrFun hl 3
  simp [accelerations, toC, Matrix.mulVec, dotProduct, Fin.sum_univ_four] at h0 h1 h2 h3
  have e0 : (l + 1) ^ 2 * x 0 = 0 := by linear_combination (-l - 2) * h0 - h2
  have e1 : (l + 1) ^ 2 * x 1 = 0 := by linear_combination (-l - 2) * h1 - h3
  have hl1 : l = -1 := by
    by_contra hn
    have hne : (l + 1) ^ 2 ≠ 0 := pow_ne_zero 2 fun h0 => hn (by linear_combination h0)
    have x0 := (mul_eq_zero.1 e0).resolve_left hne
    have x1 := (mul_eq_zero.1 e1).resolve_left hne
    apply hx
    funext i
    fin_cases i
    · exact x0
    · exact x1
    · simp [h0, x0]
    · simp [h1, x1]
  rw [hl1]
  norm_num

/-- non-vacuity of C144: the parameters of the example bicycle with all gains 1, which has an invertible mass matrix -/
theorem example_gains : ∃ stored : Dict SVal, (∀ k ∈ feedbackKeys, stored.has k = true) ∧
    (Bench.ofDict (nums stored)).canon.M.det ≠ 0 := by
  let stored : Dict SVal := (steadyDict ++ [("IByy", (2 : ℝ)), ("g", 981 / 100), ("v", 5)] ++
    gainNames.map fun k => (k, (1 : ℝ))).map fun (e : String × ℝ) => (e.1, (⟨.pyFloat, e.2⟩ : SVal))
  refine ⟨stored, ?_, ?_⟩
  · have hk : stored.keys = ["w", "c", "lam", "rR", "mR", "IRxx", "IRyy", "xB", "zB", "mB", "IBxx", "IBxz", "IBzz",
        "xH", "zH", "mH", "IHxx", "IHxz", "IHzz", "rF", "mF", "IFxx", "IFyy", "IByy", "g", "v"] ++ gainNames := rfl
    intro k hkf
    rw [Dict.has_iff_mem_keys, hk]
    exact (by decide : ∀ k ∈ feedbackKeys, k ∈ ["w", "c", "lam", "rR", "mR", "IRxx", "IRyy", "xB", "zB", "mB", "IBxx",
      "IBxz", "IBzz", "xH", "zH", "mH", "IHxx", "IHxz", "IHzz", "rF", "mF", "IFxx", "IFyy", "IByy", "g", "v"] ++ gainNames)
      k hkf
  · have hb : Bench.ofDict (nums stored) = Bench.ofDict steadyDict := by
      simp [Bench.ofDict, nums, stored, steadyDict, Dict.getD, Dict.find?]
    have hc : (Bench.ofDict steadyDict).canon = steadyCanon := by
      obtain ⟨d', hd⟩ := steady_canonical
      have h := canonical_of_keys steadyDict (by
        intro key hk
        simp only [canonKeys, canonKeysBefore, canonKeysAfter, List.cons_append, List.nil_append,
          List.mem_cons, List.not_mem_nil, or_false] at hk
        rcases hk with h | h | h | h | h | h | h | h | h | h | h | h | h | h | h | h | h | h | h | h | h | h | h <;>
          subst h <;> simp [steadyDict, Dict.has, Dict.find?])
      rw [h] at hd
      simpa using (Prod.mk.inj hd).2
    rw [hb, hc]
    exact steady_mass.ne'

end BP
