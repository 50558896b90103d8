import Verif.Model.Shipped
import Verif.Lemmas.StableCheck
import Verif.Props.Models
import Verif.Props.ParameterSets

/-!
# C150: the self-stable speeds of the bicycles that come with the package
# C151: the dictionaries that come with the package describe one bicycle
-/

namespace BP

open Real Matrix Spec

/-! ## Specification -/

/-- `benchmark_par_to_canonical` accepts the dictionary, and for the matrices it returns, all eigenvalues of the state matrix
of `ab_matrix` have negative real parts at exactly the speeds between `vw` and `vc`. -/
def Spec.SelfStableBetween (d : Dict ℝ) (g vw vc : ℝ) : Prop :=
  ∃ (d' : Dict ℝ) (c : Canon), benchmarkParToCanonical d = (d', .ok c) ∧
    ∀ v : ℝ, (∀ l : ℂ, IsEigenvalue (toC (abA c.M c.C1 c.K0 c.K2 v g)) l → l.re < 0) ↔ vw < v ∧ v < vc

/-- The dictionary with floats, as it is given to a parameter set. -/
noncomputable def Spec.floats (d : Dict ℝ) : Dict SVal := d.map fun e => (e.1, ⟨.pyFloat, e.2⟩)

/-- The floats nearest to the decimals of the file: each entry differs by at most one part in 2^53. -/
def Spec.Nearest (d : Dict ℚ) (f : Dict ℝ) : Prop :=
  ∀ k q, Dict.find? d k = some q → ∃ x, Dict.find? f k = some x ∧ |x - (q : ℝ)| ≤ |(q : ℝ)| / 2 ^ 53

/-! ## The ranges -/

theorem Spec.Nearest.has {d : Dict ℚ} {f : Dict ℝ} (h : Nearest d f) {k : String} (hk : Dict.has d k = true) :
    Dict.has f k = true := by
  obtain ⟨q, hq⟩ := (Dict.has_iff_exists _ _).1 hk
  obtain ⟨x, hx, -⟩ := h k q hq
  exact (Dict.has_iff_exists _ _).2 ⟨x, hx⟩

/-- non-vacuity of `C150_floats` and `C151_accepted`: the decimals are as near to themselves -/
theorem nearest_self (d : Dict ℚ) : Nearest d (realDict d) := fun k q hq =>
  ⟨q, by rw [realDict_find, hq]; rfl, by simp; positivity⟩

/-- The range of the floats nearest to a decimal, for the proof. -/
def nearBox (q : ℚ) : Box := ⟨q - |q| / 2 ^ 53, q + |q| / 2 ^ 53⟩

theorem nearBox_has (q : ℚ) (x : ℝ) (h : |x - (q : ℝ)| ≤ |(q : ℝ)| / 2 ^ 53) : (nearBox q).Has x := by
  rw [abs_le] at h
  constructor <;> simp only [nearBox] <;> push_cast <;> linarith [h.1, h.2]

theorem between_of_check {d : Dict ℚ} {g lo hi lo' hi' : ℚ}
    (h : (StableCheck.check (fun k => Box.pt (Dict.getD d k 0)) (Box.pt g) lo hi lo' hi' && canonKeys.all (Dict.has d)) = true) :
    ∃ vw vc : ℝ, ((lo : ℝ) < vw ∧ vw < hi) ∧ ((lo' : ℝ) < vc ∧ vc < hi') ∧ SelfStableBetween (realDict d) g vw vc := by
  rw [Bool.and_eq_true, List.all_eq_true] at h
  obtain ⟨d', c, hd, -, vw, vc, h1, h2, h3⟩ := StableCheck.check_range (d := realDict d) (Box.has_pt g) h.1 fun k hk =>
    ⟨by rw [realDict_has]; exact h.2 k hk, by rw [realDict_getD]; exact Box.has_pt _⟩
  exact ⟨vw, vc, h1, h2, d', c, hd, h3⟩

theorem near_of_check {d : Dict ℚ} {g lo hi lo' hi' : ℚ}
    (h : (StableCheck.check (fun k => nearBox (Dict.getD d k 0)) (nearBox g) lo hi lo' hi' && canonKeys.all (Dict.has d)) = true)
    (f : Dict ℝ) (hf : Nearest d f) (γ : ℝ) (hγ : |γ - (g : ℝ)| ≤ |(g : ℝ)| / 2 ^ 53) :
    ∃ vw vc : ℝ, ((lo : ℝ) < vw ∧ vw < hi) ∧ ((lo' : ℝ) < vc ∧ vc < hi') ∧ SelfStableBetween f γ vw vc := by
  rw [Bool.and_eq_true, List.all_eq_true] at h
  obtain ⟨d', c, hd, -, vw, vc, h1, h2, h3⟩ := StableCheck.check_range (d := f) (nearBox_has g γ hγ) h.1 fun k hk => by
    obtain ⟨q, hq⟩ := (Dict.has_iff_exists _ _).1 (h.2 k hk)
    obtain ⟨x, hx, hn⟩ := hf k q hq
    refine ⟨(Dict.has_iff_exists _ _).2 ⟨x, hx⟩, ?_⟩
    rw [Dict.getD, Dict.getD, hq, hx]
    exact nearBox_has q x hn
  exact ⟨vw, vc, h1, h2, d', c, hd, h3⟩

/-- **C150.** The benchmark bicycle of Meijaard and others (2007), from the file of the repository: it is self-stable at
exactly the speeds between two, which are within 2e-14 m/s of the published ones, 4.29238253634111 and 6.02426201538837. -/
theorem C150_benchmark_bicycle : ∃ vw vc : ℝ, |vw - 4.29238253634111| < 2 / 10 ^ 14 ∧
    |vc - 6.02426201538837| < 2 / 10 ^ 14 ∧ SelfStableBetween (realDict benchmarkBicycle) 9.81 vw vc := by
  obtain ⟨vw, vc, h1, h2, h3⟩ := between_of_check (d := benchmarkBicycle) (g := 9.81) (lo := 4.29238253634109)
    (hi := 4.29238253634113) (lo' := 6.02426201538835) (hi' := 6.02426201538839) (by decide +kernel)
  push_cast at h1 h2 h3
  refine ⟨vw, vc, ?_, ?_, by norm_num at h3 ⊢; exact h3⟩
  · rw [abs_lt]; constructor <;> norm_num at h1 ⊢ <;> linarith [h1.1, h1.2]
  · rw [abs_lt]; constructor <;> norm_num at h2 ⊢ <;> linarith [h2.1, h2.2]

/-- **C150.** The same for the Browser bicycle with the rider Jason, `meijaard2007_browser_jason`. -/
theorem C150_browser_jason : ∃ vw vc : ℝ, |vw - 4.9978096| < 1 / 10 ^ 7 ∧ |vc - 7.1100076| < 1 / 10 ^ 7 ∧
    SelfStableBetween (realDict browserJason) 9.81 vw vc := by
  obtain ⟨vw, vc, h1, h2, h3⟩ := between_of_check (d := browserJason) (g := 9.81) (lo := 4.9978095)
    (hi := 4.9978097) (lo' := 7.1100075) (hi' := 7.1100077) (by decide +kernel)
  push_cast at h1 h2 h3
  refine ⟨vw, vc, ?_, ?_, by norm_num at h3 ⊢; exact h3⟩
  · rw [abs_lt]; constructor <;> norm_num at h1 ⊢ <;> linarith [h1.1, h1.2]
  · rw [abs_lt]; constructor <;> norm_num at h2 ⊢ <;> linarith [h2.1, h2.2]

/-- **C150.** The same for the Browser bicycle with the legs of Jason only, `meijaard2007_browser_jasonlegs`. -/
theorem C150_browser_jasonlegs : ∃ vw vc : ℝ, |vw - 4.6391020| < 1 / 10 ^ 7 ∧ |vc - 5.8806866| < 1 / 10 ^ 7 ∧
    SelfStableBetween (realDict browserJasonLegs) 9.81 vw vc := by
  obtain ⟨vw, vc, h1, h2, h3⟩ := between_of_check (d := browserJasonLegs) (g := 9.81) (lo := 4.6391019)
    (hi := 4.6391021) (lo' := 5.8806865) (hi' := 5.8806867) (by decide +kernel)
  push_cast at h1 h2 h3
  refine ⟨vw, vc, ?_, ?_, by norm_num at h3 ⊢; exact h3⟩
  · rw [abs_lt]; constructor <;> norm_num at h1 ⊢ <;> linarith [h1.1, h1.2]
  · rw [abs_lt]; constructor <;> norm_num at h2 ⊢ <;> linarith [h2.1, h2.2]

/-- **C150.** The same with floats: Python reads a decimal as the nearest float, which differs from it by at most one part in
2^53, and so does the gravity.  Whichever numbers are so near to those of the files, the range is one, with the ends as
close. -/
theorem C150_floats (γ : ℝ) (hγ : |γ - 9.81| ≤ 9.81 / 2 ^ 53) :
    (∀ f, Nearest benchmarkBicycle f → ∃ vw vc : ℝ, |vw - 4.29238253634111| < 1 / 10 ^ 11 ∧
      |vc - 6.02426201538837| < 1 / 10 ^ 11 ∧ SelfStableBetween f γ vw vc) ∧
    (∀ f, Nearest browserJason f → ∃ vw vc : ℝ, |vw - 4.9978096| < 1 / 10 ^ 7 ∧ |vc - 7.1100076| < 1 / 10 ^ 7 ∧
      SelfStableBetween f γ vw vc) ∧
    (∀ f, Nearest browserJasonLegs f → ∃ vw vc : ℝ, |vw - 4.6391020| < 1 / 10 ^ 7 ∧ |vc - 5.8806866| < 1 / 10 ^ 7 ∧
      SelfStableBetween f γ vw vc) := by
  have hγ' : |γ - ((9.81 : ℚ) : ℝ)| ≤ |((9.81 : ℚ) : ℝ)| / 2 ^ 53 := by
    have e : ((9.81 : ℚ) : ℝ) = 9.81 := by norm_num
    rw [e, abs_of_pos (by norm_num : (0 : ℝ) < 9.81)]; exact hγ
  refine ⟨fun f hf => ?_, fun f hf => ?_, fun f hf => ?_⟩
  · obtain ⟨vw, vc, h1, h2, h3⟩ := near_of_check (d := benchmarkBicycle) (g := 9.81) (lo := 4.29238253634111 - 1 / 10 ^ 11)
      (hi := 4.29238253634111 + 1 / 10 ^ 11) (lo' := 6.02426201538837 - 1 / 10 ^ 11) (hi' := 6.02426201538837 + 1 / 10 ^ 11)
      (by decide +kernel) f hf γ hγ'
    push_cast at h1 h2
    refine ⟨vw, vc, ?_, ?_, h3⟩ <;> rw [abs_lt]
    · constructor <;> linarith [h1.1, h1.2]
    · constructor <;> linarith [h2.1, h2.2]
  · obtain ⟨vw, vc, h1, h2, h3⟩ := near_of_check (d := browserJason) (g := 9.81) (lo := 4.9978096 - 1 / 10 ^ 7)
      (hi := 4.9978096 + 1 / 10 ^ 7) (lo' := 7.1100076 - 1 / 10 ^ 7) (hi' := 7.1100076 + 1 / 10 ^ 7)
      (by decide +kernel) f hf γ hγ'
    push_cast at h1 h2
    refine ⟨vw, vc, ?_, ?_, h3⟩ <;> rw [abs_lt]
    · constructor <;> linarith [h1.1, h1.2]
    · constructor <;> linarith [h2.1, h2.2]
  · obtain ⟨vw, vc, h1, h2, h3⟩ := near_of_check (d := browserJasonLegs) (g := 9.81) (lo := 4.6391020 - 1 / 10 ^ 7)
      (hi := 4.6391020 + 1 / 10 ^ 7) (lo' := 5.8806866 - 1 / 10 ^ 7) (hi' := 5.8806866 + 1 / 10 ^ 7)
      (by decide +kernel) f hf γ hγ'
    push_cast at h1 h2
    refine ⟨vw, vc, ?_, ?_, h3⟩ <;> rw [abs_lt]
    · constructor <;> linarith [h1.1, h1.2]
    · constructor <;> linarith [h2.1, h2.2]

/-! ## The model class -/

theorem nums_floats (d : Dict ℝ) : nums (floats d) = d := by
  simp [nums, floats, List.map_map, Function.comp_def]

/-- The state matrix that the model returns for a speed, given as keyword argument, is that of `ab_matrix`. -/
theorem stateSpace_at_speed (d : Dict SVal) (hv : Dict.has d "v" = true) (xs : List SVal) (i : ℕ) (hi : i < xs.length) :
    (stateSpaceOf (evaluatedAt d [("v", .arr xs)] i)).1 =
      abA (StableCheck.canonOf (nums d)).M (StableCheck.canonOf (nums d)).C1 (StableCheck.canonOf (nums d)).K0
        (StableCheck.canonOf (nums d)).K2 xs[i].val (Dict.getD (nums d) "g" 0) := by
  have hf : ∀ k, k ≠ "v" → (nums (evaluatedAt d [("v", .arr xs)] i)).find? k = Dict.find? (nums d) k := by
    intro k hk
    rw [find?_nums, find?_evaluatedAt, find?_nums]
    have : Dict.find? [("v", OVal.arr xs)] k = none := by simp [Dict.find?, Ne.symm hk]
    rw [this]
    cases d.find? k <;> rfl
  have hb : Bench.ofDict (nums (evaluatedAt d [("v", .arr xs)] i)) = Bench.ofDict (nums d) :=
    ofDict_congr _ _ fun k hk => hf k fun e => by subst e; revert hk; decide
  have hvv : Dict.getD (nums (evaluatedAt d [("v", .arr xs)] i)) "v" 0 = xs[i].val := by
    obtain ⟨q, hq⟩ := (Dict.has_iff_exists _ _).1 hv
    rw [Dict.getD, find?_nums, find?_evaluatedAt, hq]
    simp [Dict.find?, chosen, List.getElem?_eq_getElem hi]
  have hg : Dict.getD (nums (evaluatedAt d [("v", .arr xs)] i)) "g" 0 = Dict.getD (nums d) "g" 0 := by
    rw [Dict.getD, hf "g" (by decide), Dict.getD]
  unfold stateSpaceOf
  simp only []
  rw [hvv, hg, hb]

/-- **C150.** In a sweep over speeds, `form_state_space_matrices(v=...)` of a model whose parameter set holds a dictionary
that is self-stable between `vw` and `vc` returns one state matrix for each speed, and all eigenvalues of the matrix have
negative real parts iff the speed is in the range. -/
theorem C150_model_sweep (d : Dict SVal) (vw vc : ℝ) (hk : ∀ k ∈ whippleKeys, Dict.has d k = true)
    (hd : SelfStableBetween (nums d) (Dict.getD (nums d) "g" 0) vw vc) (h : Heap) (s : ℕ)
    (hs : h[s]? = some (d.map fun e => (e.1, .num e.2))) (xs : List SVal) :
    ∃ (as : List StateSpace) (ext : Heap), formStateSpaceMatrices s [("v", .arr xs)] h = (.ok (.many as), h ++ ext) ∧
      as.length = xs.length ∧ ∀ (i : ℕ) (hi : i < xs.length) (hi' : i < as.length),
        (∀ l : ℂ, IsEigenvalue (toC as[i].1) l → l.re < 0) ↔ vw < xs[i].val ∧ xs[i].val < vc := by
  have hv : Dict.has d "v" = true := hk "v" (by decide)
  have hcomp : Compatible d [("v", .arr xs)] xs.length := by
    refine ⟨fun k _ => by simp, fun k ys _ hm => ?_⟩
    simp only [List.mem_singleton, Prod.mk.injEq, OVal.arr.injEq] at hm
    rw [hm.2]
  obtain ⟨r, ext, hr, hsl, hmany, -⟩ := C66_state_space_pointwise h s d [("v", .arr xs)] xs.length hs
    (by simp [Dict.keys]) hcomp hk
  obtain ⟨as, rfl, hlen⟩ := hmany ⟨"v", by decide, hv, xs, by simp⟩
  refine ⟨as, ext, hr, hlen, fun i hi hi' => ?_⟩
  obtain ⟨-, -, hi2⟩ := hsl i hi
  have he : as[i] = stateSpaceOf (evaluatedAt d [("v", .arr xs)] i) := by
    simpa [Stack.slice, List.getElem?_eq_getElem hi'] using hi2
  rw [he, stateSpace_at_speed d hv xs i hi]
  obtain ⟨d', c, hc, hst⟩ := hd
  rw [canonical_of_keys _ fun k hk' => by
    rw [has_nums]; exact hk k (List.mem_append_left _ hk')] at hc
  have hcc : (Bench.ofDict (nums d)).canon = c := by simpa using (Prod.mk.inj hc).2
  rw [StableCheck.canonOf, hcc]
  exact hst _

/-- non-vacuity of `C150_model_sweep`: both Browser dictionaries have the keys, and their gravity is that of the ranges -/
theorem example_shipped : (∀ k ∈ whippleKeys, Dict.has browserJason k = true) ∧ Dict.getD browserJason "g" 0 = 9.81 ∧
    (∀ k ∈ whippleKeys, Dict.has browserJasonLegs k = true) ∧ Dict.getD browserJasonLegs "g" 0 = 9.81 := by
  decide +kernel

/-- non-vacuity: swept over 1, 6 and 8 m/s, the Browser with Jason is stable at the second speed only -/
theorem example_shipped_sweep : ∃ (as : List StateSpace) (ext : Heap),
    formStateSpaceMatrices 0 [("v", .arr [⟨.pyFloat, 1⟩, ⟨.pyFloat, 6⟩, ⟨.pyFloat, 8⟩])]
      [(floats (realDict browserJason)).map fun e => (e.1, .num e.2)] = (.ok (.many as), [(floats (realDict browserJason)).map fun e =>
        (e.1, .num e.2)] ++ ext) ∧ ∃ h : as.length = 3, (∀ l : ℂ, IsEigenvalue (toC as[1].1) l → l.re < 0) ∧
      ¬ (∀ l : ℂ, IsEigenvalue (toC as[0].1) l → l.re < 0) ∧ ¬ (∀ l : ℂ, IsEigenvalue (toC as[2].1) l → l.re < 0) := by
  obtain ⟨vw, vc, h1, h2, h3⟩ := C150_browser_jason
  rw [abs_lt] at h1 h2
  have hg : Dict.getD (realDict browserJason) "g" 0 = 9.81 := by rw [realDict_getD, example_shipped.2.1]; norm_num
  obtain ⟨as, ext, he, hl, hi⟩ := C150_model_sweep (floats (realDict browserJason)) vw vc
    (fun k hk => by rw [← has_nums, nums_floats, realDict_has]; exact example_shipped.1 k hk)
    (by rw [nums_floats, hg]; exact h3)
    [(floats (realDict browserJason)).map fun e => (e.1, .num e.2)] 0 rfl [⟨.pyFloat, 1⟩, ⟨.pyFloat, 6⟩, ⟨.pyFloat, 8⟩]
  have hl : as.length = 3 := hl
  refine ⟨as, ext, he, hl, (hi 1 (by simp) (by omega)).2 ?_, fun h => ?_, fun h => ?_⟩
  · constructor
    · show vw < 6
      norm_num at h1 ⊢; linarith [h1.2]
    · show 6 < vc
      norm_num at h2 ⊢; linarith [h2.1]
  · have : vw < 1 := ((hi 0 (by simp) (by omega)).1 h).1
    norm_num at h1; linarith [h1.1]
  · have : 8 < vc := ((hi 2 (by simp) (by omega)).1 h).2
    norm_num at h2; linarith [h2.2]

/-! ## C151 -/

theorem floats_complete (d : Dict ℝ) (keys : List String) (h : ∀ k ∈ keys, Dict.has d k = true) :
    CompleteFloats keys (floats d) := by
  intro k hk
  obtain ⟨q, hq⟩ := (Dict.has_iff_exists _ _).1 (h k hk)
  refine ⟨⟨.pyFloat, q⟩, ?_, by simp⟩
  have := find?_map_key (fun _ (q : ℝ) => (⟨.pyFloat, q⟩ : SVal)) d k
  rw [hq] at this
  exact this

/-- **C151.** Every dictionary of the package, read as floats, is accepted by the class it is named after. -/
theorem C151_accepted (rider : Option Bool) :
    (∀ f, Nearest browserJason f → ∃ s, construct .meijaard (floats f) rider = .ok s) ∧
    (∀ f, Nearest browserJasonLegs f → ∃ s, construct .meijaard (floats f) rider = .ok s) ∧
    (∀ f, Nearest moore2019BrowserJason f → ∃ s, construct .moore2019 (floats f) rider = .ok s) ∧
    (∀ f, Nearest riderLeanBrowserJason f → ∃ s, construct .riderLean (floats f) rider = .ok s) := by
  have key : ∀ (kind : SetKind) (d : Dict ℚ), (∀ k ∈ kind.parStrings.keys, Dict.has d k = true) →
      ∀ f, Nearest d f → ∃ s, construct kind (floats f) rider = .ok s := fun kind d h f hf => by
    rcases C61_accepts_iff kind (floats f) rider with ⟨-, h2⟩ | ⟨h1, -⟩
    · exact ⟨_, h2⟩
    · exact absurd (floats_complete f _ fun k hk => hf.has (h k hk)) h1
  exact ⟨key _ _ (by decide +kernel), key _ _ (by decide +kernel), key _ _ (by decide +kernel), key _ _ (by decide +kernel)⟩

/-- The entry of a dictionary. -/
def Spec.entry (d : Dict ℚ) (k : String) : ℚ := Dict.getD d k 0

/-- **C151.** The Browser with Jason and the Browser with his legs only differ in the rear frame, to which the rider
belongs, and in the moments of inertia of the wheels about a diameter, which are exchanged between front and rear wheel; the
dictionary of the rider lean model and that of Moore (2019) have them as the second. -/
theorem C151_wheels_exchanged_partial :
    (∀ k ∈ browserJason.keys, k ∉ ["mB", "xB", "zB", "IBxx", "IByy", "IBzz", "IBxz"] → k ∉ ["IFxx", "IRxx"] →
      entry browserJason k = entry browserJasonLegs k) ∧
    entry browserJason "IFxx" = entry browserJasonLegs "IRxx" ∧ entry browserJason "IRxx" = entry browserJasonLegs "IFxx" ∧
    entry browserJason "IFxx" ≠ entry browserJason "IRxx" ∧
    entry riderLeanBrowserJason "id11" = entry browserJason "IFxx" ∧
    entry riderLeanBrowserJason "id22" = entry browserJason "IRyy" ∧
    entry riderLeanBrowserJason "if11" = entry browserJason "IRxx" ∧
    entry riderLeanBrowserJason "if22" = entry browserJason "IFyy" ∧
    |entry moore2019BrowserJason "mF" * entry moore2019BrowserJason "kFaa" ^ 2 - entry browserJasonLegs "IFxx"| < 1 / 10 ^ 6 ∧
    |entry moore2019BrowserJason "mR" * entry moore2019BrowserJason "kRaa" ^ 2 - entry browserJasonLegs "IRxx"| < 1 / 10 ^ 6 := by
  decide +kernel

/-- **C151.** The masses: rear frame with legs and upper body of the rider lean model add up to the rear frame of the Browser
with Jason; the rear frame and the person of Moore (2019) do not, they are 11.5 kg heavier. -/
theorem C151_masses_partial :
    entry riderLeanBrowserJason "mc" + entry riderLeanBrowserJason "mg" = entry browserJason "mB" ∧
    entry riderLeanBrowserJason "mc" = entry browserJasonLegs "mB" ∧
    entry moore2019BrowserJason "mD" + entry moore2019BrowserJason "mP" = entry browserJason "mB" + 11.5 +
      0.00000000000001 := by
  decide +kernel

/-- `meijaard2007_browser_jason` with the two moments of inertia put right. -/
def Spec.browserJasonRight : Dict ℚ :=
  Dict.set (Dict.set browserJason "IFxx" (entry browserJasonLegs "IFxx")) "IRxx" (entry browserJasonLegs "IRxx")

/-- **C151.** The exchange shows in the results: put right, the same bicycle is self-stable from 4.99180 m/s on instead of
4.99781 m/s. -/
theorem C151_exchange_shows : ∃ vw vc vw' vc' : ℝ, SelfStableBetween (realDict browserJason) 9.81 vw vc ∧
    SelfStableBetween (realDict browserJasonRight) 9.81 vw' vc' ∧ 0.006 < vw - vw' ∧ vw' < vc' := by
  obtain ⟨vw, vc, h1, h2, h3⟩ := C150_browser_jason
  obtain ⟨vw', vc', h1', h2', h3'⟩ := between_of_check (d := browserJasonRight) (g := 9.81) (lo := 4.9918045)
    (hi := 4.9918046) (lo' := 7.1100075) (hi' := 7.1100077) (by decide +kernel)
  refine ⟨vw, vc, vw', vc', h3, by norm_num at h3' ⊢; exact h3', ?_, ?_⟩
  · rw [abs_lt] at h1; norm_num at h1 h1' ⊢; linarith [h1.1, h1'.2]
  · norm_num at h1' h2'; linarith [h1'.2, h2'.1]

theorem Box.Has.small {b : Box} {x : ℝ} {e : ℚ} (h : b.Has x) (k : -e < b.lo ∧ b.hi < e) : |x| < (e : ℝ) := by
  rw [abs_lt]
  have h1 : -(e : ℝ) < b.lo := by exact_mod_cast k.1
  have h2 : (b.hi : ℝ) < e := by exact_mod_cast k.2
  exact ⟨h1.trans_le h.1, h.2.trans_lt h2⟩

/-- **C151.** The three frame lengths of the rider lean dictionary are those of the Browser: measured perpendicular to the
steer axis, rear wheel centre to steer axis and steer axis to front wheel centre, and along it. -/
theorem C151_frame_lengths :
    let r := fun k : String => (entry riderLeanBrowserJason k : ℝ)
    let b := fun k : String => (entry browserJasonLegs k : ℝ)
    |r "d1" - ((b "w" + b "c") * cos (b "lam") - b "rR" * sin (b "lam"))| < 1 / 10 ^ 14 ∧
    |r "d3" - (b "rF" * sin (b "lam") - b "c" * cos (b "lam"))| < 1 / 10 ^ 14 ∧
    |r "d2" * cos (b "lam") - (b "rR" - b "rF" + (r "d1" + r "d3") * sin (b "lam"))| < 1 / 10 ^ 14 := by
  have hC := Box.has_cos (entry browserJasonLegs "lam") (by decide +kernel)
  have hS := Box.has_sin (entry browserJasonLegs "lam") (by decide +kernel)
  have P := Box.has_pt
  refine ⟨?_, ?_, ?_⟩
  · have h := (P (entry riderLeanBrowserJason "d1")).sub
      (((P (entry browserJasonLegs "w" + entry browserJasonLegs "c")).mul hC).sub ((P (entry browserJasonLegs "rR")).mul hS))
    have := h.small (e := 1 / 10 ^ 14) (by decide +kernel)
    push_cast at this; exact this
  · have h := (P (entry riderLeanBrowserJason "d3")).sub
      (((P (entry browserJasonLegs "rF")).mul hS).sub ((P (entry browserJasonLegs "c")).mul hC))
    have := h.small (e := 1 / 10 ^ 14) (by decide +kernel)
    push_cast at this; exact this
  · have h := ((P (entry riderLeanBrowserJason "d2")).mul hC).sub
      ((P (entry browserJasonLegs "rR" - entry browserJasonLegs "rF")).add
        ((P (entry riderLeanBrowserJason "d1" + entry riderLeanBrowserJason "d3")).mul hS))
    have := h.small (e := 1 / 10 ^ 14) (by decide +kernel)
    push_cast at this; exact this

end BP
