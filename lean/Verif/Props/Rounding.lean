import Verif.Lemmas.Rounding
import Verif.Gen.RoundingCert
import Verif.Props.Shipped

/-!
# C154: the canonical matrices with rounding
-/

set_option linter.unusedSimpArgs false

namespace BP

open Real Matrix Spec

/-! ## The assignments -/

/-- In exact arithmetic the assignments give the matrices of `benchmark_par_to_canonical`. -/
theorem machineCanon_exact (d : Dict ℝ) : machineCanon exactMachine d = (Bench.ofDict d).canon := by
  have h := exact_run d
  unfold machineCanon
  simp only []
  rw [h "Mpp" (by decide), h "Mpd" (by decide), h "Mdp" (by decide), h "Mdd" (by decide), h "C1pd" (by decide),
    h "C1dp" (by decide), h "C1dd" (by decide), h "K0pp" (by decide), h "K0pd" (by decide), h "K0dp" (by decide),
    h "K0dd" (by decide), h "K2pd" (by decide), h "K2dd" (by decide)]
  simp only [ev_Mpp, ev_Mpd, ev_Mdp, ev_Mdd, ev_C1pd, ev_C1dp, ev_C1dd, ev_K0pp, ev_K0pd, ev_K0dp, ev_K0dd, ev_K2pd, ev_K2dd]
  rw [Bench.canon]
  congr 1

theorem runLines_append (O : Machine) (p q : List (String × RExpr)) (m : String → ℝ) :
    runLines O (p ++ q) m = runLines O q (runLines O p m) := by simp [runLines]

theorem runLines_other (O : Machine) (p : List (String × RExpr)) (m : String → ℝ) (k : String) (h : k ∉ p.map Prod.fst) :
    runLines O p m k = m k := by
  induction p generalizing m with
  | nil => rfl
  | cons s p ih =>
    simp only [List.map_cons, List.mem_cons, not_or] at h
    show runLines O p (Function.update m s.1 (s.2.val O m)) k = m k
    rw [ih _ h.2, Function.update_of_ne h.1]

/-- A variable that is copied from another. -/
theorem runLines_copy (O : Machine) (p q : List (String × RExpr)) (m : String → ℝ) (x y : String) (hxy : y ≠ x)
    (hx : x ∉ q.map Prod.fst) (hy : y ∉ q.map Prod.fst) :
    runLines O (p ++ (x, RExpr.var y) :: q) m x = runLines O (p ++ (x, RExpr.var y) :: q) m y := by
  rw [runLines_append]
  show runLines O q (Function.update _ x _) x = runLines O q (Function.update _ x _) y
  rw [runLines_other O q _ x hx, runLines_other O q _ y hy, Function.update_self, Function.update_of_ne hxy]
  rfl

theorem machine_symm (O : Machine) (m : String → ℝ) :
    runLines O canonLines m "Mdp" = runLines O canonLines m "Mpd" ∧
    runLines O canonLines m "K0dp" = runLines O canonLines m "K0pd" :=
  ⟨runLines_copy O (canonLines.take 25) (canonLines.drop 26) m "Mdp" "Mpd" (by decide) (by decide) (by decide),
   runLines_copy O (canonLines.take 29) (canonLines.drop 30) m "K0dp" "K0pd" (by decide) (by decide) (by decide)⟩

/-! ## Ranges -/

/-- The range of a variable: that of the parameter, or that of the certificate, for the proof. -/
def certBox (d : Dict ℚ) (ranges : Dict Box) (k : String) : Box :=
  match Dict.find? ranges k with
  | some b => b
  | none => nearBox (Dict.getD d k 0)

/-- The check of a certificate, for the proof. -/
def certOk (d : Dict ℚ) (ranges : Dict Box) : Bool :=
  canonLines.all (lineFits (certBox d ranges)) &&
  canonInputs.all fun k => decide (Dict.find? ranges k = none) && Dict.has d k

theorem cert_has {d : Dict ℚ} {ranges : Dict Box} (h : certOk d ranges = true) {O : Machine} (hO : Rounds O) (f : Dict ℝ)
    (hf : Nearest d f) (k : String) (hk : k ∈ canonLines.map Prod.fst) :
    (certBox d ranges k).Has (runLines O canonLines (fun k => Dict.getD f k 0) k) := by
  rw [certOk, Bool.and_eq_true, List.all_eq_true, List.all_eq_true] at h
  refine run_has hO (certBox d ranges) canonLines canonInputs _ (fun k hk => ?_) (by decide)
    (List.all_eq_true.2 h.1) k (List.mem_append_right _ hk)
  have := h.2 k hk
  rw [Bool.and_eq_true, decide_eq_true_eq] at this
  obtain ⟨q, hq⟩ := (Dict.has_iff_exists _ _).1 this.2
  obtain ⟨x, hx, hn⟩ := hf k q hq
  rw [certBox, this.1]
  simp only [Dict.getD, hq, hx]
  exact nearBox_has q x hn

/-- The entries of the computed matrices, for the proof. -/
def certEntries (d : Dict ℚ) (ranges : Dict Box) : StableCheck.Entries :=
  let C := certBox d ranges
  ⟨C "Mpp", C "Mpd", C "Mdd", C "K0pp", C "K0pd", C "K0dd", C "K2pd", C "K2dd", C "C1pd", C "C1dp", C "C1dd"⟩

theorem cert_hold {d : Dict ℚ} {ranges : Dict Box} (h : certOk d ranges = true) {O : Machine} (hO : Rounds O) (f : Dict ℝ)
    (hf : Nearest d f) : (certEntries d ranges).Hold (machineCanon O f) := by
  have H := cert_has h hO f hf
  have S := machine_symm O fun k => Dict.getD f k 0
  exact ⟨H "Mpp" (by decide), H "Mpd" (by decide), H "Mdd" (by decide), H "K0pp" (by decide), H "K0pd" (by decide),
    H "K0dd" (by decide), H "K2pd" (by decide), H "K2dd" (by decide), H "C1pd" (by decide), H "C1dp" (by decide),
    H "C1dd" (by decide), S.1, S.2, rfl, rfl, rfl⟩

theorem browserJason_cert : certOk browserJason browserJasonRanges = true := by decide +kernel
theorem browserJasonLegs_cert : certOk browserJasonLegs browserJasonLegsRanges = true := by decide +kernel
theorem benchmarkBicycle_cert : certOk benchmarkBicycle benchmarkBicycleRanges = true := by decide +kernel

/-! ## Machines -/

/-- The machine that computes exactly and rounds the result, as double precision numbers do; for the examples, no
counterpart in the code. -/
noncomputable def roundingMachine (rd : ℝ → ℝ) : Machine where
  neg x := -x
  add x y := rd (x + y)
  sub x y := rd (x - y)
  mul x y := rd (x * y)
  div x y := rd (x / y)
  sq x := rd (x ^ 2)
  cos x := rd (Real.cos x)
  sin x := rd (Real.sin x)
  dot a b c d := rd (rd (a * b) + rd (c * d))

/-- non-vacuity of C154: whichever way the results are rounded -/
theorem rounding_machine (rd : ℝ → ℝ) (h : ∀ r, RoundedTo r (rd r)) : Rounds (roundingMachine rd) :=
  ⟨fun _ => rfl, fun _ _ => h _, fun _ _ => h _, fun _ _ => h _, fun _ _ _ => h _, fun _ => h _, fun _ => h _, fun _ => h _⟩

/-- non-vacuity of C154: results that are all too large by one part in 2^52 -/
theorem example_rounding : Rounds (roundingMachine fun r => r + r / 2 ^ 52) :=
  rounding_machine _ fun r _ => by
    have e : r + r / 2 ^ 52 - r = r / 2 ^ 52 := by ring
    rw [e, abs_div, abs_of_pos (by positivity : (0 : ℝ) < 2 ^ 52)]
    exact le_add_of_nonneg_right (by positivity)

theorem exact_rounds : Rounds exactMachine := by
  have h : ∀ r : ℝ, RoundedTo r r := fun r _ => by rw [sub_self, abs_zero]; positivity
  exact ⟨fun _ => rfl, fun _ _ => h _, fun _ _ => h _, fun _ _ => h _, fun _ _ _ => h _, fun _ => h _, fun _ => h _,
    fun _ => h _⟩

/-! ## The theorems -/

/-- The matrices of a dictionary as the machine computes them are within `e` of the exact ones, entry by entry. -/
def Spec.Accurate (O : Machine) (f : Dict ℝ) (e : ℝ) : Prop :=
  ∃ (f' : Dict ℝ) (c : Canon), benchmarkParToCanonical f = (f', .ok c) ∧ ∀ i j : Fin 2,
    |(machineCanon O f).M i j - c.M i j| ≤ e ∧ |(machineCanon O f).C1 i j - c.C1 i j| ≤ e ∧
    |(machineCanon O f).K0 i j - c.K0 i j| ≤ e ∧ |(machineCanon O f).K2 i j - c.K2 i j| ≤ e

/-- For the matrices that the machine computes, all eigenvalues of the state matrix of `ab_matrix` have negative real parts at
exactly the speeds between `vw` and `vc`. -/
def Spec.ComputedStableBetween (O : Machine) (f : Dict ℝ) (g vw vc : ℝ) : Prop :=
  ∀ v : ℝ, (∀ l : ℂ, IsEigenvalue (toC (abA (machineCanon O f).M (machineCanon O f).C1 (machineCanon O f).K0
    (machineCanon O f).K2 v g)) l → l.re < 0) ↔ vw < v ∧ v < vc

theorem accurate_of_cert {d : Dict ℚ} {ranges : Dict Box} (h : certOk d ranges = true)
    (hw : (ranges.all fun e => decide (e.2.hi - e.2.lo ≤ 1 / 10 ^ 12)) = true)
    (hkeys : ranges.keys = canonLines.map Prod.fst) {O : Machine} (hO : Rounds O) (f : Dict ℝ) (hf : Nearest d f) :
    Accurate O f (1 / 10 ^ 12) := by
  have hcan := canonical_of_keys f fun k hk => by
    rw [certOk, Bool.and_eq_true, List.all_eq_true, List.all_eq_true] at h
    have := h.2 k hk
    rw [Bool.and_eq_true] at this
    exact hf.has this.2
  refine ⟨_, _, hcan, ?_⟩
  rw [← machineCanon_exact]
  have key : ∀ k ∈ canonLines.map Prod.fst, |runLines O canonLines (fun k => Dict.getD f k 0) k -
      runLines exactMachine canonLines (fun k => Dict.getD f k 0) k| ≤ 1 / 10 ^ 12 := fun k hk => by
    have h1 := cert_has h hO f hf k hk
    have h2 := cert_has h exact_rounds f hf k hk
    obtain ⟨b, hb⟩ := (Dict.has_iff_exists _ _).1 ((Dict.has_iff_mem_keys ranges k).2 (by rw [hkeys]; exact hk))
    have hmem : (k, b) ∈ ranges := mem_of_find? hb
    have h3 : b.hi - b.lo ≤ 1 / 10 ^ 12 := by
      have := List.all_eq_true.1 hw _ hmem
      exact of_decide_eq_true this
    have h4 : ((b.hi - b.lo : ℚ) : ℝ) ≤ ((1 / 10 ^ 12 : ℚ) : ℝ) := by exact_mod_cast h3
    push_cast at h4
    have e : certBox d ranges k = b := by rw [certBox, hb]
    rw [e] at h1 h2
    rw [abs_le]
    constructor <;> linarith [h1.1, h1.2, h2.1, h2.2]
  have z : |(0 : ℝ) - 0| ≤ 1 / 10 ^ 12 := by norm_num
  intro i j
  fin_cases i <;> fin_cases j
  · exact ⟨key "Mpp" (by decide), z, key "K0pp" (by decide), z⟩
  · exact ⟨key "Mpd" (by decide), key "C1pd" (by decide), key "K0pd" (by decide), key "K2pd" (by decide)⟩
  · exact ⟨key "Mdp" (by decide), key "C1dp" (by decide), key "K0dp" (by decide), z⟩
  · exact ⟨key "Mdd" (by decide), key "C1dd" (by decide), key "K0dd" (by decide), key "K2dd" (by decide)⟩

/-- **C154.** Whichever way the results of the operations are rounded, the matrices that `benchmark_par_to_canonical` computes
for the benchmark bicycle and for the two Browser dictionaries are within 1e-12 of the exact ones, in every entry. -/
theorem C154_accurate (O : Machine) (hO : Rounds O) (f : Dict ℝ)
    (hf : Nearest benchmarkBicycle f ∨ Nearest browserJason f ∨ Nearest browserJasonLegs f) : Accurate O f (1 / 10 ^ 12) := by
  rcases hf with hf | hf | hf
  · exact accurate_of_cert benchmarkBicycle_cert (by decide +kernel) (by decide) hO f hf
  · exact accurate_of_cert browserJason_cert (by decide +kernel) (by decide) hO f hf
  · exact accurate_of_cert browserJasonLegs_cert (by decide +kernel) (by decide) hO f hf

/-- **C154.** On every machine and for every dictionary, rounding leaves the structure: the computed mass matrix and stiffness
matrix are exactly symmetric, and the zeros are zeros. -/
theorem C154_structure (O : Machine) (f : Dict ℝ) :
    (machineCanon O f).Mᵀ = (machineCanon O f).M ∧ (machineCanon O f).K0ᵀ = (machineCanon O f).K0 ∧
    (machineCanon O f).C1 0 0 = 0 ∧ ∀ i, (machineCanon O f).K2 i 0 = 0 := by
  obtain ⟨h1, h2⟩ := machine_symm O fun k => Dict.getD f k 0
  refine ⟨?_, ?_, rfl, fun i => by fin_cases i <;> rfl⟩
  · ext i j
    fin_cases i <;> fin_cases j
    · rfl
    · exact h1
    · exact h1.symm
    · rfl
  · ext i j
    fin_cases i <;> fin_cases j
    · rfl
    · exact h2
    · exact h2.symm
    · rfl

theorem computed_of_cert {d : Dict ℚ} {ranges : Dict Box} (h : certOk d ranges = true) {g lo hi lo' hi' : ℚ}
    (hs : StableCheck.signs (certEntries d ranges) (nearBox g) lo hi lo' hi' = true) {O : Machine} (hO : Rounds O)
    (f : Dict ℝ) (hf : Nearest d f) (γ : ℝ) (hγ : |γ - (g : ℝ)| ≤ |(g : ℝ)| / 2 ^ 53) :
    ∃ vw vc : ℝ, ((lo : ℝ) < vw ∧ vw < hi) ∧ ((lo' : ℝ) < vc ∧ vc < hi') ∧ ComputedStableBetween O f γ vw vc := by
  obtain ⟨-, vw, vc, h1, h2, h3⟩ := StableCheck.range_of_entries (cert_hold h hO f hf) (nearBox_has g γ hγ) hs
  exact ⟨vw, vc, h1, h2, h3⟩

/-- **C154.** The computed matrices are self-stable at the speeds of one range, the ends of which are those of C150: rounding
moves the ends for the benchmark bicycle by less than 1e-10 m/s from the published values. -/
theorem C154_range (O : Machine) (hO : Rounds O) (γ : ℝ) (hγ : |γ - 9.81| ≤ 9.81 / 2 ^ 53) :
    (∀ f, Nearest benchmarkBicycle f → ∃ vw vc : ℝ, |vw - 4.29238253634111| < 1 / 10 ^ 10 ∧
      |vc - 6.02426201538837| < 1 / 10 ^ 10 ∧ ComputedStableBetween O f γ vw vc) ∧
    (∀ f, Nearest browserJason f → ∃ vw vc : ℝ, |vw - 4.9978096| < 1 / 10 ^ 7 ∧ |vc - 7.1100076| < 1 / 10 ^ 7 ∧
      ComputedStableBetween O f γ vw vc) ∧
    (∀ f, Nearest browserJasonLegs f → ∃ vw vc : ℝ, |vw - 4.6391020| < 1 / 10 ^ 7 ∧ |vc - 5.8806866| < 1 / 10 ^ 7 ∧
      ComputedStableBetween O f γ vw vc) := by
  have hγ' : |γ - ((9.81 : ℚ) : ℝ)| ≤ |((9.81 : ℚ) : ℝ)| / 2 ^ 53 := by
    have e : ((9.81 : ℚ) : ℝ) = 9.81 := by norm_num
    rw [e, abs_of_pos (by norm_num : (0 : ℝ) < 9.81)]; exact hγ
  refine ⟨fun f hf => ?_, fun f hf => ?_, fun f hf => ?_⟩
  · obtain ⟨vw, vc, h1, h2, h3⟩ := computed_of_cert benchmarkBicycle_cert (g := 9.81) (lo := 4.29238253634111 - 1 / 10 ^ 10)
      (hi := 4.29238253634111 + 1 / 10 ^ 10) (lo' := 6.02426201538837 - 1 / 10 ^ 10) (hi' := 6.02426201538837 + 1 / 10 ^ 10)
      (by decide +kernel) hO f hf γ hγ'
    push_cast at h1 h2
    refine ⟨vw, vc, ?_, ?_, h3⟩ <;> rw [abs_lt]
    · constructor <;> linarith [h1.1, h1.2]
    · constructor <;> linarith [h2.1, h2.2]
  · obtain ⟨vw, vc, h1, h2, h3⟩ := computed_of_cert browserJason_cert (g := 9.81) (lo := 4.9978096 - 1 / 10 ^ 7)
      (hi := 4.9978096 + 1 / 10 ^ 7) (lo' := 7.1100076 - 1 / 10 ^ 7) (hi' := 7.1100076 + 1 / 10 ^ 7)
      (by decide +kernel) hO f hf γ hγ'
    push_cast at h1 h2
    refine ⟨vw, vc, ?_, ?_, h3⟩ <;> rw [abs_lt]
    · constructor <;> linarith [h1.1, h1.2]
    · constructor <;> linarith [h2.1, h2.2]
  · obtain ⟨vw, vc, h1, h2, h3⟩ := computed_of_cert browserJasonLegs_cert (g := 9.81) (lo := 4.6391020 - 1 / 10 ^ 7)
      (hi := 4.6391020 + 1 / 10 ^ 7) (lo' := 5.8806866 - 1 / 10 ^ 7) (hi' := 5.8806866 + 1 / 10 ^ 7)
      (by decide +kernel) hO f hf γ hγ'
    push_cast at h1 h2
    refine ⟨vw, vc, ?_, ?_, h3⟩ <;> rw [abs_lt]
    · constructor <;> linarith [h1.1, h1.2]
    · constructor <;> linarith [h2.1, h2.2]

end BP
