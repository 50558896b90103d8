import Verif.Props.Eigen
import Mathlib.Analysis.InnerProductSpace.PiL2
import Mathlib.Analysis.SpecialFunctions.Trigonometric.Inverse

/-!
# Properties of models.py: eigenvector plots (C92) and modal controllability (C93)
-/

set_option linter.unusedSimpArgs false

namespace BP

open Matrix Spec

section
variable {m k : ℕ} {form : Form m k} {ok : Dict SVal → Dict OVal → ℕ → Prop}
  {f : Dict SVal → SS m k} {rel : String → Prop}

/-! ## C92 -/

theorem listMax_mem : ∀ (l : List ℝ), l ≠ [] → listMax l ∈ l
  | [], h => absurd rfl h
  | [y], _ => by simp [listMax]
  | a :: b :: l, _ => by
    simp only [listMax]
    rcases max_choice a (listMax (b :: l)) with h | h
    · rw [h]; simp
    · rw [h]; exact List.mem_cons_of_mem _ (listMax_mem (b :: l) (by simp))

/-- The polar plot of a vector: one line for each component, at its angle, the radii being
the magnitudes divided by the largest magnitude. -/
def Spec.PolarPlotOf {ι : ℕ} (lines : List (ℝ × ℝ)) (v : Fin ι → ℂ) : Prop :=
  lines.length = ι ∧ ∃ M : ℝ, (∀ c, ‖v c‖ ≤ M) ∧ (∃ c, ‖v c‖ = M) ∧
    ∀ c : Fin ι, lines[c]? = some ((v c).arg, ‖v c‖ / M)

theorem polarPlot_of (m : ℕ) {ι : ℕ} (w : ℂ) (v : Fin ι → ℂ) (hι : ι ≤ m) (h0 : 0 < ι) :
    ∃ p, polarPlot m (w, List.ofFn v) = .ok p ∧ p.eigenvalue = w ∧ PolarPlotOf p.lines v := by
  unfold polarPlot
  rw [if_pos (by simpa using hι)]
  refine ⟨_, rfl, rfl, by simp, listMax ((List.ofFn v).map fun c => ‖c‖), fun c => ?_, ?_, fun c => ?_⟩
  · have := le_listMax ((List.ofFn v).map fun c => ‖c‖) c (by simp)
    simpa [List.getD_eq_getElem?_getD] using this
  · have := listMax_mem ((List.ofFn v).map fun c => ‖c‖) (by simp; omega)
    obtain ⟨z, h1, h2⟩ := List.mem_map.1 this
    obtain ⟨c, rfl⟩ := List.mem_ofFn.1 h1
    exact ⟨c, h2⟩
  · simp

theorem mapM_polar (m : ℕ) {ι μ : ℕ} (w : Fin μ → ℂ) (v : Fin μ → Fin ι → ℂ) (hι : ι ≤ m) (h0 : 0 < ι) :
    ∃ row, ((List.ofFn w).zip (List.ofFn fun j => List.ofFn (v j))).mapM (polarPlot m) = .ok row ∧
      row.length = μ ∧ ∀ j : Fin μ, ∃ p, row[j]? = some p ∧ p.eigenvalue = w j ∧ PolarPlotOf p.lines (v j) := by
  have hz : (List.ofFn w).zip (List.ofFn fun j => List.ofFn (v j)) =
      (List.finRange μ).map fun j => (w j, List.ofFn (v j)) := by
    rw [List.ofFn_eq_map, List.ofFn_eq_map, List.zip_map']
  choose p h1 h2 h3 using fun j => polarPlot_of m (w j) (v j) hι h0
  refine ⟨(List.finRange μ).map p, ?_, by simp, fun j => ⟨p j, by simp, h2 j, h3 j⟩⟩
  rw [hz, List.mapM_map]
  exact mapM_eq_map fun j _ => h1 j

theorem plotEigenvectors_run (eig : Eig m)
    (h : Heap) (s : ℕ) (stored : Dict SVal) (ov : Dict OVal) (n : ℕ)
    (hs : Holds h s stored) (hn : ov.keys.Nodup)
    (hc : Compatible stored ov n) (e : Stack (EigPair m))
    (he : ∀ h, Holds h s stored → ∃ ext, calcEigen form eig false s ov h = (.ok e, h ++ ext)) :
    ∃ ext, plotEigenvectors form eig s ov h = (
      if evalSeq e = [] then .error .indexError
      else if 10 < (evalSeq e).length then .error .valueError
      else ((((evalSeq e).zip (evecSeqT e)).take (if sweptKeys stored ov = [] then 1 else n)).mapM
        fun r => (r.1.zip r.2).mapM (polarPlot m)), h ++ ext) := by
  obtain ⟨d, e2, hf⟩ := parse_good h s stored ov n hs hn hc
  obtain ⟨ext, e3⟩ := he (h ++ [d]) (hs.append [d])
  refine ⟨[d] ++ ext, ?_⟩
  unfold plotEigenvectors
  rw [HM.bind_ok e2, HM.bind_ok e3]
  by_cases h0 : evalSeq e = []
  · rw [if_pos h0, if_pos h0, HM.raise_run, List.append_assoc]
  · rw [if_neg h0, if_neg h0]
    by_cases h1 : 10 < (evalSeq e).length
    · rw [if_pos h1, if_pos h1, HM.raise_run, List.append_assoc]
    · rw [if_neg h1, if_neg h1]
      have hN : (if sweptKeys stored ov = [] then 1
          else (if sweptKeys stored ov = [] then none else some n : Option ℕ).getD 0) =
          if sweptKeys stored ov = [] then 1 else n := by
        split <;> simp
      simp only [hN]
      rw [HM.ofExcept_run, List.append_assoc]

/-- **C92.** Without a swept parameter `plot_eigenvectors` draws one row of polar plots; plot
`j` is titled with eigenvalue `j` and shows every component of eigenvector `j`, at its angle,
scaled so that the largest one has radius 1. -/
theorem C92_eigenvectors_fixed_parameters (hm : IsModel form ok f rel) (eig : Eig m)
    (h : Heap) (s : ℕ) (stored : Dict SVal) (ov : Dict OVal) (n : ℕ)
    (hs : h[s]? = some (stored.map fun e => (e.1, .num e.2))) (hn : ov.keys.Nodup)
    (hc : Compatible stored ov n) (hok : ok stored ov n) (hno : ∀ k, ¬ Swept stored ov k)
    (hm0 : 0 < m) :
    ∃ row ext, plotEigenvectors form eig s ov h = (.ok [row], h ++ ext) ∧ row.length = m ∧
      ∀ j : Fin m, ∃ p, row[j]? = some p ∧ p.eigenvalue = eigenvaluesAt eig f stored ov 0 j ∧
        PolarPlotOf p.lines fun c => (eig (f (evaluatedAt stored ov 0)).1).2 c j := by
  classical
  have hnil : sweptKeys stored ov = [] := by
    by_contra h0
    obtain ⟨k, hk⟩ := List.exists_mem_of_ne_nil _ h0
    exact hno k (mem_sweptKeys.1 hk)
  obtain ⟨ext, e⟩ := plotEigenvectors_run eig h s stored ov n hs hn hc
    (.one (eig (f (evaluatedAt stored ov 0)).1)) (fun h' hs' => by
      obtain ⟨ext, e⟩ := calcEigen_run hm eig false h' s stored ov n hs' hn hc hok
      rw [if_neg (by rintro ⟨k, _, hk⟩; exact hno k hk)] at e
      exact ⟨ext, by rw [e]; simp [eigMatrix]⟩)
  obtain ⟨row, h1, h2, h3⟩ := mapM_polar m (eig (f (evaluatedAt stored ov 0)).1).1
    (fun b c => (eig (f (evaluatedAt stored ov 0)).1).2 c b) (le_refl _) hm0
  refine ⟨row, ext, ?_, h2, h3⟩
  rw [e]
  simp only [evalSeq, evecSeqT, hnil]
  simp only [reduceCtorEq, if_false, List.length_cons, List.length_nil, if_true, List.zip_cons_cons,
    List.take_succ_cons, List.take_zero, List.mapM_cons, List.mapM_nil, h1]
  simp

/-- **C92 is false of sweeps.** With a swept parameter and `n ≤ m` values (`m` states) there
are `n` rows, but plot `b` of row `a` is not drawn from eigenvector `b` of the `a`-th value:
it has `n` lines instead of one for each state, line `c` being component `b` of
eigenvector `a` at the `c`-th value. -/
theorem C92_eigenvectors_sweep_transposed (hm : IsModel form ok f rel) (eig : Eig m)
    (h : Heap) (s : ℕ) (stored : Dict SVal) (ov : Dict OVal) (n : ℕ)
    (hs : h[s]? = some (stored.map fun e => (e.1, .num e.2))) (hn : ov.keys.Nodup)
    (hc : Compatible stored ov n) (hok : ok stored ov n)
    (hrel : ∃ k, rel k ∧ Swept stored ov k) (hpos : 0 < n) (hnm : n ≤ m) (h10 : n ≤ 10) :
    ∃ rows ext, plotEigenvectors form eig s ov h = (.ok rows, h ++ ext) ∧ rows.length = n ∧
      ∀ (a : Fin m), a.1 < n → ∃ row, rows[a]? = some row ∧ row.length = m ∧ ∀ b : Fin m,
        ∃ p, row[b]? = some p ∧ p.eigenvalue = eigenvaluesAt eig f stored ov a b ∧
          PolarPlotOf p.lines fun c : Fin n => (eig (f (evaluatedAt stored ov c)).1).2 b a := by
  classical
  obtain ⟨ext, e⟩ := plotEigenvectors_run eig h s stored ov n hs hn hc
    (.many ((List.range n).map fun i => eig (f (evaluatedAt stored ov i)).1)) (fun h' hs' => by
      obtain ⟨ext, e⟩ := calcEigen_run hm eig false h' s stored ov n hs' hn hc hok
      rw [if_pos hrel] at e
      exact ⟨ext, by rw [e]; simp [eigMatrix]⟩)
  have hne : sweptKeys stored ov ≠ [] := by
    intro h0
    obtain ⟨k, _, hk⟩ := hrel
    have := mem_sweptKeys.2 hk
    rw [h0] at this; simp at this
  have hlist : ∀ (a b : Fin m), ((List.range n).map fun i => eig (f (evaluatedAt stored ov i)).1).map
      (fun p => p.2 b a) = List.ofFn fun c : Fin n => (eig (f (evaluatedAt stored ov c)).1).2 b a := by
    intro a b
    apply List.ext_getElem
    · simp
    · intro i h1 h2; simp
  have hz : (((evalSeq (.many ((List.range n).map fun i => eig (f (evaluatedAt stored ov i)).1))).zip
      (evecSeqT (.many ((List.range n).map fun i => eig (f (evaluatedAt stored ov i)).1)))).take n) =
      (List.finRange n).map fun a : Fin n => (List.ofFn (eig (f (evaluatedAt stored ov a)).1).1,
        List.ofFn fun b => List.ofFn fun c : Fin n =>
          (eig (f (evaluatedAt stored ov c)).1).2 b ⟨a, by have := a.2; omega⟩) := by
    apply List.ext_getElem
    · simp [evalSeq, evecSeqT]; omega
    · intro i h1 h2
      simp only [List.length_map, List.length_finRange] at h2
      simp only [evalSeq, evecSeqT, List.getElem_take, List.getElem_zip, List.getElem_map,
        List.getElem_range, List.getElem_ofFn, hlist, List.getElem_finRange]
      rfl
  choose row h1 h2 h3 using fun a : Fin n => mapM_polar m (eig (f (evaluatedAt stored ov a)).1).1
    (fun b (c : Fin n) => (eig (f (evaluatedAt stored ov c)).1).2 b ⟨a, by have := a.2; omega⟩) hnm hpos
  refine ⟨(List.finRange n).map row, ext, ?_, by simp, fun a ha => ⟨row ⟨a, ha⟩, ?_, h2 _, h3 ⟨a, ha⟩⟩⟩
  · rw [e, if_neg (by simp [evalSeq]; omega), if_neg (by simp [evalSeq]; omega), if_neg hne, hz,
      List.mapM_map]
    have := mapM_eq_map (l := List.finRange n) (g := row) fun a _ => h1 a
    rw [← this]
    rfl
  · simp [ha]

/-- **C92.** More than ten values raise `ValueError` as documented; between `m + 1` and ten
values, which the message allows, raise `IndexError`, and so does an empty array. -/
theorem C92_eigenvectors_raise (hm : IsModel form ok f rel) (eig : Eig m)
    (h : Heap) (s : ℕ) (stored : Dict SVal) (ov : Dict OVal) (n : ℕ)
    (hs : h[s]? = some (stored.map fun e => (e.1, .num e.2))) (hn : ov.keys.Nodup)
    (hc : Compatible stored ov n) (hok : ok stored ov n)
    (hrel : ∃ k, rel k ∧ Swept stored ov k) (hm0 : 0 < m) :
    ∃ ext, (10 < n → plotEigenvectors form eig s ov h = (.error .valueError, h ++ ext)) ∧
      (m < n → n ≤ 10 → plotEigenvectors form eig s ov h = (.error .indexError, h ++ ext)) ∧
      (n = 0 → plotEigenvectors form eig s ov h = (.error .indexError, h ++ ext)) := by
  classical
  obtain ⟨ext, e⟩ := plotEigenvectors_run eig h s stored ov n hs hn hc
    (.many ((List.range n).map fun i => eig (f (evaluatedAt stored ov i)).1)) (fun h' hs' => by
      obtain ⟨ext, e⟩ := calcEigen_run hm eig false h' s stored ov n hs' hn hc hok
      rw [if_pos hrel] at e
      exact ⟨ext, by rw [e]; simp [eigMatrix]⟩)
  have hne : sweptKeys stored ov ≠ [] := by
    intro h0
    obtain ⟨k, _, hk⟩ := hrel
    have := mem_sweptKeys.2 hk
    rw [h0] at this; simp at this
  refine ⟨ext, fun hn10 => ?_, fun hmn hn10 => ?_, fun h0 => ?_⟩
  · rw [e, if_neg (by simp [evalSeq]; omega), if_pos (by simp [evalSeq]; omega)]
  · rw [e, if_neg (by simp [evalSeq]; omega), if_neg (by simp [evalSeq]; omega), if_neg hne]
    obtain ⟨m, rfl⟩ : ∃ m', m = m' + 1 := ⟨m - 1, by omega⟩
    obtain ⟨n, rfl⟩ : ∃ n', n = n' + 1 := ⟨n - 1, by omega⟩
    have hev : evalSeq (.many ((List.range (n + 1)).map fun i => eig (f (evaluatedAt stored ov i)).1)) =
        List.ofFn (eig (f (evaluatedAt stored ov 0)).1).1 :: ((List.range n).map fun i =>
          List.ofFn (eig (f (evaluatedAt stored ov (i + 1))).1).1) := by
      simp [evalSeq, List.range_succ_eq_map, Function.comp_def]
    have hpl : ∀ w (l : List ℂ), m + 1 < l.length → polarPlot (m + 1) (w, l) = .error .indexError := by
      intro w l hl
      unfold polarPlot
      rw [if_neg (by simp; omega)]
    rw [hev]
    simp only [evecSeqT, List.ofFn_succ (n := m), List.zip_cons_cons, List.take_succ_cons,
      List.mapM_cons]
    rw [hpl _ _ (by simp; omega)]
    rfl
  · rw [e, if_pos (by simp [evalSeq, h0])]

/-! ## C93 -/

theorem modNum_eq (q : Fin m → ℂ) (b : Fin m → ℝ) : modNum q b = ∑ i, (q i).re * b i := by
  unfold modNum
  rw [Complex.re_sum]
  refine Finset.sum_congr rfl fun i _ => ?_
  simp

theorem modNum_le (q : Fin m → ℂ) (b : Fin m → ℝ) : |modNum q b| ≤ modDen q b := by
  rw [modNum_eq]
  unfold modDen
  rw [← Real.sqrt_mul (Finset.sum_nonneg fun i _ => by positivity)]
  apply Real.le_sqrt_of_sq_le
  rw [sq_abs]
  calc (∑ i, (q i).re * b i) ^ 2 ≤ (∑ i, (q i).re ^ 2) * ∑ i, b i ^ 2 :=
        Finset.sum_mul_sq_le_sq_mul_sq _ _ _
    _ ≤ (∑ i, ‖q i‖ ^ 2) * ∑ i, b i ^ 2 := by
        refine mul_le_mul_of_nonneg_right (Finset.sum_le_sum fun i _ => ?_)
          (Finset.sum_nonneg fun i _ => by positivity)
        rw [← sq_abs]
        exact pow_le_pow_left₀ (abs_nonneg _) (Complex.abs_re_le_norm _) 2

theorem modDen_pos {q : Fin m → ℂ} {b : Fin m → ℝ} (hq : q ≠ 0) (hb : b ≠ 0) : 0 < modDen q b := by
  obtain ⟨i, hi⟩ := Function.ne_iff.1 hq
  obtain ⟨j, hj⟩ := Function.ne_iff.1 hb
  unfold modDen
  refine mul_pos (Real.sqrt_pos.2 ?_) (Real.sqrt_pos.2 ?_)
  · exact lt_of_lt_of_le (by have := norm_pos_iff.2 hi; positivity)
      (Finset.single_le_sum (f := fun i => ‖q i‖ ^ 2) (fun i _ => by positivity) (Finset.mem_univ i))
  · have : 0 < b j ^ 2 := by have : b j ≠ 0 := hj; positivity
    exact lt_of_lt_of_le this
      (Finset.single_le_sum (f := fun i => b i ^ 2) (fun i _ => by positivity) (Finset.mem_univ j))

theorem modRatio_mem {q : Fin m → ℂ} {b : Fin m → ℝ} : |modNum q b / modDen q b| ≤ 1 := by
  rw [abs_div]
  have h := modNum_le q b
  have h0 : 0 ≤ modDen q b := le_trans (abs_nonneg _) h
  rw [abs_of_nonneg h0]
  exact div_le_one_of_le₀ h h0

/-- **C93.** The angle between a left eigenvector and an input column, neither zero, is
always a proper angle whose cosine is the documented quotient: the argument of `arccos` never
leaves its domain.  It is between 0 and 90 degrees by default and between 0 and 180 degrees
with `acute=False` (the documentation says -90 to 90). -/
theorem C93_angle (q : Fin m → ℂ) (b : Fin m → ℝ) (hq : q ≠ 0) (hb : b ≠ 0) :
    (Real.cos (modCont true q b) * (Real.sqrt (∑ i, ‖q i‖ ^ 2) * Real.sqrt (∑ i, b i ^ 2)) =
      |(∑ i, (starRingEnd ℂ) (q i) * (b i : ℂ)).re|) ∧
    0 ≤ modCont true q b ∧ modCont true q b ≤ Real.pi / 2 ∧
    (Real.cos (modCont false q b) * (Real.sqrt (∑ i, ‖q i‖ ^ 2) * Real.sqrt (∑ i, b i ^ 2)) =
      (∑ i, (starRingEnd ℂ) (q i) * (b i : ℂ)).re) ∧
    0 ≤ modCont false q b ∧ modCont false q b ≤ Real.pi := by
  have hd := modDen_pos hq hb
  have hr := modRatio_mem (q := q) (b := b)
  have hr' := abs_le.1 hr
  have hd' : modDen q b = Real.sqrt (∑ i, ‖q i‖ ^ 2) * Real.sqrt (∑ i, b i ^ 2) := rfl
  have hn' : modNum q b = (∑ i, (starRingEnd ℂ) (q i) * (b i : ℂ)).re := rfl
  refine ⟨?_, Real.arccos_nonneg _, ?_, ?_, Real.arccos_nonneg _, Real.arccos_le_pi _⟩
  · unfold modCont
    rw [if_pos rfl, Real.cos_arccos (by linarith [abs_nonneg (modNum q b / modDen q b)]) hr, ← hd', ← hn',
      abs_div, abs_of_pos hd]
    field_simp
  · unfold modCont
    rw [if_pos rfl]
    exact Real.arccos_le_pi_div_two.2 (abs_nonneg _)
  · unfold modCont
    rw [if_neg (by simp), Real.cos_arccos hr'.1 hr'.2, ← hd', ← hn']
    field_simp

/-- **C93.** For a real left eigenvector: 90 degrees mean that the input does not act on the
mode, since `q·x` obeys `(q·x)' = λ (q·x) + (q·b) u`. -/
theorem C93_real_mode (A : Matrix (Fin m) (Fin m) ℝ) (q b x : Fin m → ℝ) (lam u : ℝ) (acute : Bool)
    (hq : q ≠ 0) (hb : b ≠ 0) (hA : q ᵥ* A = lam • q) :
    (modCont acute (fun i => (q i : ℂ)) b = Real.pi / 2 ↔ q ⬝ᵥ b = 0) ∧
    q ⬝ᵥ (A *ᵥ x + u • b) = lam * (q ⬝ᵥ x) + u * (q ⬝ᵥ b) := by
  have hq' : (fun i => (q i : ℂ)) ≠ 0 := by
    obtain ⟨i, hi⟩ := Function.ne_iff.1 hq
    refine Function.ne_iff.2 ⟨i, ?_⟩
    simpa using hi
  have hd := modDen_pos hq' hb
  have hn : modNum (fun i => (q i : ℂ)) b = q ⬝ᵥ b := by
    rw [modNum_eq]; simp [dotProduct]
  constructor
  · have h0 : (modNum (fun i => (q i : ℂ)) b / modDen (fun i => (q i : ℂ)) b = 0) ↔ q ⬝ᵥ b = 0 := by
      rw [hn, div_eq_zero_iff]
      exact ⟨fun h => h.resolve_right hd.ne', Or.inl⟩
    unfold modCont
    rw [Real.arccos_eq_pi_div_two]
    cases acute
    · simpa using h0
    · simpa using h0
  · rw [dotProduct_add, Matrix.dotProduct_mulVec, hA, smul_dotProduct, dotProduct_smul]
    simp

/-- **C93 is ill-defined for complex modes.** If `q` is an eigenvector then so is `c q` for
every `c` of modulus one, and `eig` may return either; but the angle depends on `c`: whenever
the input acts on the mode (`qᴴ b ≠ 0`) there is a `c` for which the angle is 90 degrees. -/
theorem C93_depends_on_phase (q : Fin m → ℂ) (b : Fin m → ℝ) (acute : Bool)
    (h : ∑ i, (starRingEnd ℂ) (q i) * (b i : ℂ) ≠ 0) :
    ∃ c : ℂ, ‖c‖ = 1 ∧ modCont acute (c • q) b = Real.pi / 2 ∧
      ∀ (A : Matrix (Fin m) (Fin m) ℝ) (lam : ℂ), q ᵥ* (A.map Complex.ofReal) = lam • q →
        (c • q) ᵥ* (A.map Complex.ofReal) = lam • (c • q) := by
  set z := ∑ i, (starRingEnd ℂ) (q i) * (b i : ℂ) with hz
  have hz' : (‖z‖ : ℂ) ≠ 0 := by simpa using h
  refine ⟨Complex.I * (z / ‖z‖), by simp [h], ?_, fun A lam hA => ?_⟩
  · have hn : modNum ((Complex.I * (z / ‖z‖)) • q) b = 0 := by
      unfold modNum
      have : (∑ i, (starRingEnd ℂ) (((Complex.I * (z / ‖z‖)) • q) i) * (b i : ℂ)) =
          (starRingEnd ℂ) (Complex.I * (z / ‖z‖)) * z := by
        rw [hz, Finset.mul_sum]
        refine Finset.sum_congr rfl fun i _ => ?_
        simp only [Pi.smul_apply, smul_eq_mul, map_mul]
        ring
      rw [this]
      have h2 : (starRingEnd ℂ) (Complex.I * (z / ‖z‖)) * z = -Complex.I * (‖z‖ : ℂ) := by
        rw [map_mul, map_div₀, Complex.conj_I, Complex.conj_ofReal]
        have h3 : (starRingEnd ℂ) z * z = (‖z‖ : ℂ) ^ 2 := by
          rw [mul_comm, Complex.mul_conj, Complex.normSq_eq_norm_sq]; push_cast; rfl
        field_simp
        linear_combination -h3
      rw [h2]
      simp
    unfold modCont
    rw [hn]
    cases acute <;> simp
  · rw [Matrix.smul_vecMul, hA, smul_comm]

open Classical in
/-- **C93.** `_calc_modal_controllability` with a swept parameter: at every position there is
one row of angles for each sorted mode, with the angle between the left eigenvector the sorting
puts there and each column of `B`. -/
theorem C93_modal_controllability (hm : IsModel form ok f rel) (eig : Eig m) (acute : Bool)
    (h : Heap) (s : ℕ) (stored : Dict SVal) (ov : Dict OVal) (n : ℕ)
    (hs : h[s]? = some (stored.map fun e => (e.1, .num e.2))) (hn : ov.keys.Nodup)
    (hc : Compatible stored ov n) (hok : ok stored ov n)
    (hrel : ∃ k, rel k ∧ Swept stored ov k) (hpos : 0 < n) (hm0 : 0 < m) :
    ∃ betas ext, ∃ sel : ℕ → Fin m → Fin m,
      calcModalControllability form eig acute s ov h = (.ok betas, h ++ ext) ∧
      betas.length = n ∧ sel 0 = id ∧ ∀ i, i < n → betas[i]? = some (List.ofFn fun j =>
        List.ofFn fun l => modCont acute
          (fun c => (eig ((f (evaluatedAt stored ov i)).1)ᵀ).2 c (sel i j))
          fun c => (f (evaluatedAt stored ov i)).2 c l) := by
  obtain ⟨ext, e⟩ := hm.run h s stored ov n hs hn hc hok
  obtain ⟨ext2, e2⟩ := calcEigen_run hm eig true (h ++ ext) s stored ov n
    (Holds.append (h := h) (s := s) (stored := stored) hs ext) hn hc hok
  rw [if_pos hrel] at e e2
  set es := (List.range n).map fun i => eig (eigMatrix true (f (evaluatedAt stored ov i))) with hes
  have hne : es ≠ [] := by rw [hes]; simp; omega
  obtain ⟨hlen, hrow⟩ := sorted_rows hm0 es hne
  have hlen' : (sortEigenmodes (es.map eigRow)).length = n := by rw [hlen, hes]; simp
  have hrow' : ∀ i, ∃ σ : Fin m → Fin m, (i = 0 → σ = id) ∧ (i < n → (sortEigenmodes
      (es.map eigRow))[i]? = some (eigRow (fun j => (eig ((f (evaluatedAt stored ov i)).1)ᵀ).1 (σ j),
          fun i' j => (eig ((f (evaluatedAt stored ov i)).1)ᵀ).2 i' (σ j)))) := by
    intro i
    by_cases hi : i < n
    · obtain ⟨σ, h1, h2⟩ := hrow i (eig ((f (evaluatedAt stored ov i)).1)ᵀ) (by
        rw [hes]; simp [List.getElem?_range hi, eigMatrix])
      exact ⟨σ, h1, fun _ => h2⟩
    · exact ⟨id, fun _ => rfl, fun h0 => absurd h0 hi⟩
  choose sel hsel0 hsel using hrow'
  refine ⟨(((List.range n).map fun i => f (evaluatedAt stored ov i)).zip
      (sortEigenmodes (es.map eigRow))).map (modRow acute), ext ++ ext2, sel, ?_, ?_, hsel0 0 rfl, ?_⟩
  · unfold calcModalControllability
    rw [HM.bind_ok e, HM.bind_ok e2]
    simp only
    rw [if_neg hne, HM.pure_run, List.append_assoc]
  · simp [hlen']
  · intro i hi
    have hz : (((List.range n).map fun i => f (evaluatedAt stored ov i)).zip
        (sortEigenmodes (es.map eigRow)))[i]? = some (f (evaluatedAt stored ov i),
          eigRow (fun j => (eig ((f (evaluatedAt stored ov i)).1)ᵀ).1 (sel i j),
            fun i' j => (eig ((f (evaluatedAt stored ov i)).1)ᵀ).2 i' (sel i j))) :=
      List.getElem?_zip_eq_some.2 ⟨by simp [List.getElem?_range hi], hsel i hi⟩
    rw [List.getElem?_map, hz]
    simp only [Option.map_some, modRow, eigRow, List.map_ofFn, Option.some.injEq]
    congr 1
    funext j
    simp [List.ofFn_eq_map]

/-- **C93.** Without a swept parameter the documented shape `(4,2)` is never returned: the
call raises `TypeError`. -/
theorem C93_fixed_parameters_raise (hm : IsModel form ok f rel) (eig : Eig m) (acute : Bool)
    (h : Heap) (s : ℕ) (stored : Dict SVal) (ov : Dict OVal) (n : ℕ)
    (hs : h[s]? = some (stored.map fun e => (e.1, .num e.2))) (hn : ov.keys.Nodup)
    (hc : Compatible stored ov n) (hok : ok stored ov n) (hno : ∀ k, ¬ Swept stored ov k) :
    ∃ ext, calcModalControllability form eig acute s ov h = (.error .typeError, h ++ ext) := by
  classical
  obtain ⟨ext, e⟩ := hm.run h s stored ov n hs hn hc hok
  obtain ⟨ext2, e2⟩ := calcEigen_run hm eig true (h ++ ext) s stored ov n
    (Holds.append (h := h) (s := s) (stored := stored) hs ext) hn hc hok
  have hnr : ¬ ∃ k, rel k ∧ Swept stored ov k := by rintro ⟨k, _, hk⟩; exact hno k hk
  rw [if_neg hnr] at e e2
  refine ⟨ext ++ ext2, ?_⟩
  unfold calcModalControllability
  rw [HM.bind_ok e, HM.bind_ok e2]
  simp only
  rw [HM.raise_run, List.append_assoc]

/-- `C93_angle` and `C93_depends_on_phase` apply to `q = (1, i)`, `b = (1, 0)`; the angle
is 45 degrees for `q` and 180 degrees for the pair `-b`, `b`. -/
theorem example_angle : (![1, Complex.I] : Fin 2 → ℂ) ≠ 0 ∧ (![1, 0] : Fin 2 → ℝ) ≠ 0 ∧
    (∑ i, (starRingEnd ℂ) ((![1, Complex.I] : Fin 2 → ℂ) i) * ((![1, 0] : Fin 2 → ℝ) i : ℂ) ≠ 0) ∧
    modCont true (![1, Complex.I] : Fin 2 → ℂ) ![1, 0] = Real.pi / 4 ∧
    modCont false (![-1, 0] : Fin 2 → ℂ) ![1, 0] = Real.pi := by
  refine ⟨fun h => by simpa using congrFun h 0, fun h => by simpa using congrFun h 0, by simp, ?_, ?_⟩
  · have h1 : modNum (![1, Complex.I] : Fin 2 → ℂ) ![1, 0] = 1 := by simp [modNum_eq, Fin.sum_univ_two]
    have h2 : modDen (![1, Complex.I] : Fin 2 → ℂ) ![1, 0] = Real.sqrt 2 := by
      simp [modDen, Fin.sum_univ_two]; norm_num
    have h3 : (1 : ℝ) / Real.sqrt 2 = Real.cos (Real.pi / 4) := by
      rw [Real.cos_pi_div_four]
      have := Real.sq_sqrt (show (0 : ℝ) ≤ 2 by norm_num)
      field_simp
      linarith
    unfold modCont
    rw [h1, h2, if_pos rfl, abs_of_nonneg (by positivity), h3, Real.arccos_cos] <;>
      linarith [Real.pi_pos]
  · simp [modCont, modNum_eq, modDen, Fin.sum_univ_two]

end
end BP
