import Verif.Model.ModelMethods
import Verif.Props.Feedback
import Verif.Props.RiderLean
import Verif.Props.Sorting

/-!
# Properties of models.py: eigenvalues (C96) and their plots (C95)

The methods of `_Model` are run on any model that meets `IsModel`; the three models of
models.py do (`C96_whipple`, `C96_feedback`, `C96_rider_lean`).
-/

set_option linter.unusedSimpArgs false

namespace BP

open Matrix Spec

open Classical in
/-- `form` is a model of `f`: with usable keyword arguments it returns the matrices `f` gives
for the parameters of each position, one pair for each position if a parameter in `rel` is
swept, and changes no dictionary; `f` depends on swept parameters in `rel` only. -/
structure IsModel {m k : ℕ} (form : Form m k) (ok : Dict SVal → Dict OVal → ℕ → Prop)
    (f : Dict SVal → SS m k) (rel : String → Prop) : Prop where
  run : ∀ (h : Heap) (s : ℕ) (stored : Dict SVal) (ov : Dict OVal) (n : ℕ),
    h[s]? = some (stored.map fun e => (e.1, .num e.2)) → ov.keys.Nodup →
    Compatible stored ov n → ok stored ov n →
    ∃ ext, form s ov h = (.ok (if ∃ k, rel k ∧ Swept stored ov k then
        .many ((List.range n).map fun i => f (evaluatedAt stored ov i))
      else .one (f (evaluatedAt stored ov 0))), h ++ ext)
  indep : ∀ (stored : Dict SVal) (ov : Dict OVal) (i j : ℕ), (∀ k, rel k → ¬ Swept stored ov k) →
    f (evaluatedAt stored ov i) = f (evaluatedAt stored ov j)

theorem evaluatedAt_indep {stored : Dict SVal} {ov : Dict OVal} (i j : ℕ) (k : String)
    (h : ¬ Swept stored ov k) :
    (evaluatedAt stored ov i).find? k = (evaluatedAt stored ov j).find? k := by
  rw [find?_evaluatedAt, find?_evaluatedAt]
  cases hx : stored.find? k with
  | none => rfl
  | some x =>
    cases ho : ov.find? k with
    | none => rfl
    | some o =>
      cases o with
      | num y => rfl
      | unsized => rfl
      | arr ys => exact absurd ⟨(Dict.has_iff_exists _ _).2 ⟨x, hx⟩, ys, mem_of_find? ho⟩ h

theorem getD_indep {stored : Dict SVal} {ov : Dict OVal} (i j : ℕ) (k : String)
    (h : ¬ Swept stored ov k) : Dict.getD (nums (evaluatedAt stored ov i)) k 0 =
      Dict.getD (nums (evaluatedAt stored ov j)) k 0 := by
  unfold Dict.getD
  rw [find?_nums, find?_nums, evaluatedAt_indep i j k h]

/-- `Meijaard2007Model` is a model of the matrices of bicycle.py. -/
theorem C96_whipple : IsModel formStateSpaceMatrices
    (fun stored _ _ => ∀ k ∈ whippleKeys, stored.has k = true) stateSpaceOf (· ∈ relevantKeys) where
  run h s stored ov n hs hn hc hD := by
    obtain ⟨ext, e⟩ := stateSpace_run h s stored ov n hs hn hc hD
    refine ⟨ext, ?_⟩
    rw [e]
    unfold stateSpaceResult
    by_cases h0 : ∃ k ∈ relevantKeys, Swept stored ov k
    · rw [if_pos h0, if_pos h0]
    · rw [if_neg h0, if_neg h0]
  indep stored ov i j hno := by
    unfold stateSpaceOf
    rw [ofDict_evaluatedAt stored ov i j fun k hk => hno k
        (List.mem_append.2 (Or.inl (canonKeys_canonDeps k hk))),
      getD_indep i j "v" (hno _ (by decide)), getD_indep i j "g" (hno _ (by decide))]

/-- `Meijaard2007WithFeedbackModel` is a model of the closed loop. -/
theorem C96_feedback : IsModel formFeedbackMatrices
    (fun stored ov n => (∀ k ∈ feedbackKeys, stored.has k = true) ∧
      ((∃ k ∈ gainNames, Swept stored ov k) → 0 < n ∧ GainsStoredExactly stored ov n))
    closedLoopOf (fun _ => True) where
  run h s stored ov n hs hn hc hD := by
    obtain ⟨ext, e⟩ := C67_closed_loop h s stored ov n hs hn hc hD.1 (fun h0 => (hD.2 h0).1)
      fun h0 => (hD.2 h0).2
    refine ⟨ext, ?_⟩
    rw [e]
    by_cases h0 : ∃ k, Swept stored ov k
    · rw [if_pos h0, if_pos (by simpa using h0)]
    · rw [if_neg h0, if_neg (by simpa using h0)]
  indep stored ov i j hno := by
    have hg : ∀ k, Dict.getD (nums (evaluatedAt stored ov i)) k 0 =
        Dict.getD (nums (evaluatedAt stored ov j)) k 0 := fun k => getD_indep i j k (hno k trivial)
    unfold closedLoopOf stateSpaceOf gainsOf
    rw [ofDict_evaluatedAt stored ov i j fun k hk => hno k trivial]
    simp only [hg]

/-- `MooreRiderLean2012Model` is a model of the generated matrices. -/
theorem C96_rider_lean (pitch : ℝ → ℝ → ℝ → ℝ → ℝ → ℝ → ℝ → ℝ)
    (evalLinear : (Fin 9 → ℝ) → (Fin 4 → ℝ) → (Fin 4 → ℝ) → List ℝ → Linear13) :
    IsModel (formRiderLeanMatrices pitch evalLinear)
      (fun stored _ _ => ∀ k ∈ leanKeys, stored.has k = true) (leanOf pitch evalLinear)
      (fun _ => True) where
  run h s stored ov n hs hn hc hD := by
    obtain ⟨ext, e⟩ := C69_rider_lean_matrices pitch evalLinear h s stored ov n hs hn hc hD
    refine ⟨ext, ?_⟩
    rw [e]
    by_cases h0 : ∃ k, Swept stored ov k
    · rw [if_pos h0, if_pos (by simpa using h0)]
    · rw [if_neg h0, if_neg (by simpa using h0)]
  indep stored ov i j hno := by
    have hg : ∀ k, Dict.getD (nums (evaluatedAt stored ov i)) k 0 =
        Dict.getD (nums (evaluatedAt stored ov j)) k 0 := fun k => getD_indep i j k (hno k trivial)
    unfold leanOf
    simp only [hg]

/-! ## C96 -/

section
variable {m k : ℕ} {form : Form m k} {ok : Dict SVal → Dict OVal → ℕ → Prop}
  {f : Dict SVal → SS m k} {rel : String → Prop}

open Classical in
/-- `calc_eigen`, run. -/
theorem calcEigen_run (hm : IsModel form ok f rel) (eig : Eig m) (left : Bool)
    (h : Heap) (s : ℕ) (stored : Dict SVal) (ov : Dict OVal) (n : ℕ)
    (hs : Holds h s stored) (hn : ov.keys.Nodup)
    (hc : Compatible stored ov n) (hok : ok stored ov n) :
    ∃ ext, calcEigen form eig left s ov h = (.ok (if ∃ k, rel k ∧ Swept stored ov k then
        .many ((List.range n).map fun i => eig (eigMatrix left (f (evaluatedAt stored ov i))))
      else .one (eig (eigMatrix left (f (evaluatedAt stored ov 0))))), h ++ ext) := by
  obtain ⟨ext, e⟩ := hm.run h s stored ov n hs hn hc hok
  refine ⟨ext, ?_⟩
  unfold calcEigen
  rw [HM.bind_ok e]
  split <;> simp [HM.pure_run, Function.comp_def]

open Classical in
/-- **C96.** `calc_eigen`: position `i` of the result is what `eig` gives for the `A` of the
`i`-th parameter values, or for its transpose with `left=True`; there is one result for each
position when a parameter the matrices depend on is swept, one result otherwise; no dictionary
is changed. -/
theorem C96_eigen_pointwise (hm : IsModel form ok f rel) (eig : Eig m) (left : Bool)
    (h : Heap) (s : ℕ) (stored : Dict SVal) (ov : Dict OVal) (n : ℕ)
    (hs : h[s]? = some (stored.map fun e => (e.1, .num e.2))) (hn : ov.keys.Nodup)
    (hc : Compatible stored ov n) (hok : ok stored ov n) :
    ∃ e ext, calcEigen form eig left s ov h = (.ok e, h ++ ext) ∧
      (∀ i, i < n → e.slice i = .ok (eig (if left then ((f (evaluatedAt stored ov i)).1)ᵀ
        else (f (evaluatedAt stored ov i)).1))) ∧
      ((∃ k, rel k ∧ Swept stored ov k) → ∃ es, e = .many es ∧ es.length = n) ∧
      ((¬ ∃ k, rel k ∧ Swept stored ov k) →
        e = .one (eig (if left then ((f (evaluatedAt stored ov 0)).1)ᵀ
          else (f (evaluatedAt stored ov 0)).1))) := by
  obtain ⟨ext, e⟩ := calcEigen_run hm eig left h s stored ov n hs hn hc hok
  refine ⟨_, ext, e, fun i hi => ?_, fun h0 => ?_, fun h0 => ?_⟩
  · split
    · simp [Stack.slice, List.getElem?_range hi, eigMatrix]
    · rename_i hno
      rw [hm.indep stored ov 0 i fun k hk hsw => hno ⟨k, hk, hsw⟩]
      rfl
  · rw [if_pos h0]; exact ⟨_, rfl, by simp⟩
  · rw [if_neg h0]; rfl

/-- What is expected of `numpy.linalg.eig`: the columns are eigenvectors, not zero, and the
eigenvalues are the roots of the characteristic polynomial with multiplicity. -/
def Spec.EigenpairsOf (A : Matrix (Fin m) (Fin m) ℝ) (e : EigPair m) : Prop :=
  (∀ j, (A.map Complex.ofReal) *ᵥ (fun i => e.2 i j) = e.1 j • fun i => e.2 i j) ∧
  (∀ j, (fun i => e.2 i j) ≠ 0) ∧
  (A.map Complex.ofReal).charpoly = ∏ j, (Polynomial.X - Polynomial.C (e.1 j))

/-- **C96.** Provided `eig` is right: with `left=True` the columns are left eigenvectors,
`qᵀ A = λ qᵀ`, and the eigenvalues are the same, up to their order, as with `left=False`. -/
theorem C96_left_eigenvectors (A : Matrix (Fin m) (Fin m) ℝ) (e eL : EigPair m)
    (he : EigenpairsOf A e) (hL : EigenpairsOf Aᵀ eL) :
    (∀ j, (fun i => eL.2 i j) ᵥ* (A.map Complex.ofReal) = eL.1 j • fun i => eL.2 i j) ∧
    (Finset.univ.val.map eL.1 = Finset.univ.val.map e.1) := by
  constructor
  · intro j
    have := hL.1 j
    rw [Matrix.transpose_map, Matrix.mulVec_transpose] at this
    exact this
  · have h1 : ∏ j, (Polynomial.X - Polynomial.C (eL.1 j)) = ∏ j, (Polynomial.X - Polynomial.C (e.1 j)) := by
      rw [← hL.2.2, ← he.2.2, Matrix.transpose_map, Matrix.charpoly_transpose]
    have h2 := congrArg Polynomial.roots h1
    have hr : ∀ g : Fin m → ℂ, (∏ j, (Polynomial.X - Polynomial.C (g j))).roots =
        Finset.univ.val.map g := by
      intro g
      have : (∏ j, (Polynomial.X - Polynomial.C (g j))) =
          (Multiset.map (fun a => Polynomial.X - Polynomial.C a) (Finset.univ.val.map g)).prod := by
        rw [Multiset.map_map]; rfl
      rw [this, Polynomial.roots_multiset_prod_X_sub_C]
    rwa [hr, hr] at h2

/-! ## C95 -/

/-- The first keyword argument that names a parameter and is an array: it is the abscissa. -/
def Spec.FirstSwept (stored : Dict SVal) (ov : Dict OVal) (key : String) (xs : List SVal) : Prop :=
  ∃ pre post, ov = pre ++ (key, .arr xs) :: post ∧ stored.has key = true ∧
    ∀ k ys, (k, OVal.arr ys) ∈ pre → stored.has k = false

theorem firstSwept_of_keys {stored : Dict SVal} : ∀ (ov : Dict OVal) (key : String)
    (rest : List String), sweptKeys stored ov = key :: rest → ∃ xs, FirstSwept stored ov key xs
  | [], _, _, h => by simp [sweptKeys, knownArrays] at h
  | (k, v) :: ov, key, rest, h => by
    have step : (∀ ys, v = .arr ys → stored.has k = false) →
        ∃ xs, FirstSwept stored ((k, v) :: ov) key xs := by
      intro hv
      have h' : sweptKeys stored ov = key :: rest := by
        unfold sweptKeys knownArrays at h ⊢
        rw [List.filterMap_cons] at h
        cases v with
        | num x => simpa using h
        | unsized => simpa using h
        | arr ys => simpa [hv ys rfl] using h
      obtain ⟨xs, pre, post, e, hk, hp⟩ := firstSwept_of_keys ov key rest h'
      refine ⟨xs, (k, v) :: pre, post, by rw [e]; rfl, hk, fun k' ys hm => ?_⟩
      rcases List.mem_cons.1 hm with h1 | h1
      · simp only [Prod.mk.injEq] at h1
        obtain ⟨rfl, h1⟩ := h1
        exact hv ys h1.symm
      · exact hp k' ys h1
    cases v with
    | num x => exact step fun ys h0 => by cases h0
    | unsized => exact step fun ys h0 => by cases h0
    | arr ys =>
      by_cases hk : stored.has k = true
      · unfold sweptKeys knownArrays at h
        rw [List.filterMap_cons] at h
        simp only [hk, if_true, List.map_cons, List.cons.injEq] at h
        obtain ⟨rfl, _⟩ := h
        exact ⟨ys, [], ov, rfl, hk, by simp⟩
      · exact step fun _ _ => by simpa using hk

/-- The eigenvalues of position `i`. -/
def Spec.eigenvaluesAt (eig : Eig m) (f : Dict SVal → SS m k) (stored : Dict SVal)
    (ov : Dict OVal) (i : ℕ) : Fin m → ℂ := (eig (f (evaluatedAt stored ov i)).1).1

/-- A value, or nothing where it is hidden because it is smaller than the tolerance. -/
def Spec.ShownAs (tol : Option ℝ) (x : ℝ) (y : Option ℝ) : Prop :=
  y = some x ∧ (∀ t, tol = some t → t ≤ |x|) ∨ y = none ∧ ∃ t, tol = some t ∧ |x| < t

theorem shownAs_hideZero (tol : Option ℝ) (x : ℝ) : ShownAs tol x (hideZero tol x) := by
  unfold hideZero ShownAs
  cases tol with
  | none => left; simp
  | some t =>
    by_cases h : |x| < t
    · right; simp [h]
    · left; simp [h]; linarith

/-- `plot_eigenvalue_parts` reaches the drawing when a parameter of the model is swept. -/
theorem plotEigenvalueParts_run (hm : IsModel form ok f rel) (eig : Eig m) (sort showStable : Bool)
    (tol : Option ℝ) (h : Heap) (s : ℕ) (stored : Dict SVal) (ov : Dict OVal) (n : ℕ)
    (hs : Holds h s stored) (hn : ov.keys.Nodup)
    (hc : Compatible stored ov n) (hok : ok stored ov n) (hrel : ∃ k, rel k ∧ Swept stored ov k) :
    ∃ key xs ext, FirstSwept stored ov key xs ∧ plotEigenvalueParts form eig sort showStable tol s ov h =
      (drawEigenvalues sort showStable tol xs ((List.range n).map fun i =>
        eig (f (evaluatedAt stored ov i)).1), h ++ ext) := by
  classical
  obtain ⟨ext, e⟩ := calcEigen_run hm eig false h s stored ov n hs hn hc hok
  obtain ⟨d, e2, hf⟩ := parse_good (h ++ ext) s stored ov n (hs.append ext) hn hc
  rw [if_pos hrel] at e
  obtain ⟨key, rest, hkeys⟩ : ∃ key rest, sweptKeys stored ov = key :: rest := by
    obtain ⟨k, _, hk⟩ := hrel
    exact List.exists_cons_of_ne_nil fun h0 => by
      have := mem_sweptKeys.2 hk
      rw [h0] at this; simp at this
  obtain ⟨xs, hfs⟩ := firstSwept_of_keys ov key rest hkeys
  have hd : d.find? key = some (.arr xs) := by
    obtain ⟨pre, post, eo, hk, hp⟩ := hfs
    obtain ⟨x, hx⟩ := (Dict.has_iff_exists _ _).1 hk
    have hmem : (key, OVal.arr xs) ∈ ov := by rw [eo]; simp
    rw [hf key, hx, find?_eq_of_mem_nodup hn hmem]; rfl
  refine ⟨key, xs, ext ++ [d], hfs, ?_⟩
  unfold plotEigenvalueParts
  rw [HM.bind_ok e, HM.bind_ok e2, HM.bind_ok (HM.load_run _ _)]
  have hg : (h ++ ext ++ [d]).getD (h ++ ext).length [] = d := by
    simp [List.getD_eq_getElem?_getD]
  have hget : d.get key = .ok (.arr xs) := by simp [Dict.get, hd]
  simp only [hg, hkeys, hget]
  rw [HM.ofExcept_run, List.append_assoc]
  simp [eigMatrix]

open Classical in
/-- **C95.** `plot_eigenvalue_parts` with `sort_modes=False` and a swept parameter: the
abscissae are the first array, mode `j` is drawn with `|Im|` and `Re` of the `j`-th
eigenvalue of every position (hidden if smaller than the tolerance), and exactly the positions
where no eigenvalue has a positive real part are shaded. -/
theorem C95_eigenvalue_parts_unsorted (hm : IsModel form ok f rel) (eig : Eig m) (showStable : Bool)
    (tol : Option ℝ) (h : Heap) (s : ℕ) (stored : Dict SVal) (ov : Dict OVal) (n : ℕ)
    (hs : h[s]? = some (stored.map fun e => (e.1, .num e.2))) (hn : ov.keys.Nodup)
    (hc : Compatible stored ov n) (hok : ok stored ov n)
    (hrel : ∃ k, rel k ∧ Swept stored ov k) (hpos : 0 < n) :
    ∃ plot key ext, plotEigenvalueParts form eig false showStable tol s ov h = (.ok plot, h ++ ext) ∧
      FirstSwept stored ov key plot.xs ∧
      plot.imag.length = m ∧ plot.real.length = m ∧
      (∀ j : Fin m, ∃ ys zs, plot.imag[j]? = some ys ∧ plot.real[j]? = some zs ∧
        ys.length = n ∧ zs.length = n ∧ ∀ i, i < n →
          (∃ y, ys[i]? = some y ∧ ShownAs tol |(eigenvaluesAt eig f stored ov i j).im| y) ∧
          ∃ z, zs[i]? = some z ∧ ShownAs tol (eigenvaluesAt eig f stored ov i j).re z) ∧
      plot.stable = if showStable then some ((List.range n).map fun i =>
        decide (∀ j, (eigenvaluesAt eig f stored ov i j).re ≤ 0)) else none := by
  obtain ⟨key, xs, ext, hfs, e⟩ := plotEigenvalueParts_run hm eig false showStable tol h s stored ov n
    hs hn hc hok hrel
  unfold drawEigenvalues at e
  rw [if_neg (by simp; omega)] at e
  refine ⟨_, key, ext, e, hfs, by simp, by simp, fun j => ?_, ?_⟩
  · have hj : j.1 < m := j.2
    refine ⟨_, _, by simp [List.getElem?_range hj]; rfl, by simp [List.getElem?_range hj]; rfl,
      by simp, by simp, fun i hi => ⟨⟨_, by simp [List.getElem?_range hi]; rfl, ?_⟩, _,
        by simp [List.getElem?_range hi]; rfl, ?_⟩⟩
    · simp only [eigRow, List.getD_eq_getElem?_getD, List.getElem?_ofFn, hj, dif_pos,
        Option.getD_some]
      exact shownAs_hideZero _ _
    · simp only [eigRow, List.getD_eq_getElem?_getD, List.getElem?_ofFn, hj, dif_pos,
        Option.getD_some]
      exact shownAs_hideZero _ _
  · cases showStable with
    | false => rfl
    | true =>
      simp only [if_true, Bool.false_eq_true, if_false, List.map_map, Option.some.injEq]
      refine List.map_congr_left fun i _ => ?_
      rw [Bool.eq_iff_iff, decide_eq_true_iff]
      simp [rowStable, eigRow, Spec.eigenvaluesAt, List.mem_ofFn]

/-- A row picked from a row of `eig` is a selection of its columns. -/
theorem picks_eigRow {p : EigPair m} {r : EigRow (Fin m → ℂ)} (h : PicksFrom (eigRow p) r) :
    ∃ σ : Fin m → Fin m, r = eigRow (fun j => p.1 (σ j), fun i j => p.2 i (σ j)) := by
  obtain ⟨ks, hl, hb, h1, h2⟩ := h
  have hl' : ks.length = m := by simpa [eigRow] using hl
  have hb' : ∀ j : Fin m, ks.getD j 0 < m := by
    intro j
    have hj : j.1 < ks.length := by omega
    have := (hb _ (List.getElem_mem hj)).1
    simpa [eigRow, List.getD_eq_getElem?_getD, List.getElem?_eq_getElem hj] using this
  have key : ∀ {β : Type} (g : Fin m → β) (l : List β),
      l.map some = ks.map (fun k => (List.ofFn g)[k]?) → l = List.ofFn fun j => g ⟨ks.getD j 0, hb' j⟩ := by
    intro β g l hg
    apply List.ext_getElem
    · have := congrArg List.length hg
      simp at this ⊢; omega
    · intro i hi1 hi2
      have hi : i < ks.length := by simp at hi2; omega
      have h3 : (l.map some)[i]? = (ks.map (fun k => (List.ofFn g)[k]?))[i]? := by rw [hg]
      have h4 := hb' ⟨i, by omega⟩
      simp only [List.getD_eq_getElem?_getD, List.getElem?_eq_getElem hi, Option.getD_some] at h4
      simp [List.getElem?_eq_getElem hi1, List.getElem?_eq_getElem hi, h4] at h3
      simp [h3, hi]
  refine ⟨fun j => ⟨ks.getD j 0, hb' j⟩, ?_⟩
  obtain ⟨ev, vc⟩ := r
  simp only [eigRow, EigRow.mk.injEq]
  exact ⟨key _ _ h1, key _ _ h2⟩

theorem sorted_rows (hm0 : 0 < m) (es : List (EigPair m)) (hne : es ≠ []) :
    (sortEigenmodes (es.map eigRow)).length = es.length ∧
    (∀ i p, es[i]? = some p → ∃ σ : Fin m → Fin m, (i = 0 → σ = id) ∧
      (sortEigenmodes (es.map eigRow))[i]? =
        some (eigRow (fun j => p.1 (σ j), fun i j => p.2 i (σ j)))) := by
  obtain ⟨p0, rest, rfl⟩ := List.exists_cons_of_ne_nil hne
  rw [List.map_cons]
  obtain ⟨h1, h2, h3⟩ := C07_sort_picks_pairs m hm0 (eigRow p0) (rest.map eigRow) (by
    intro r hr
    simp only [List.mem_cons, List.mem_map] at hr
    rcases hr with rfl | ⟨p, _, rfl⟩ <;> simp [eigRow])
  refine ⟨by simpa using h2, fun i p hp => ?_⟩
  have hi : i < (p0 :: rest).length := by
    by_contra hc
    rw [List.getElem?_eq_none (by omega)] at hp; cases hp
  cases i with
  | zero =>
    simp at hp
    subst hp
    refine ⟨id, fun _ => rfl, ?_⟩
    rw [List.head?_eq_getElem?] at h1
    rw [h1]; rfl
  | succ i =>
    have hi1 : i + 1 < (eigRow p0 :: rest.map eigRow).length := by simpa using hi
    have hi2 : i + 1 < (sortEigenmodes (eigRow p0 :: rest.map eigRow)).length := by omega
    have h4 := List.forall₂_iff_get.1 h3 |>.2 (i + 1) hi1 hi2
    have h5 : (eigRow p0 :: rest.map eigRow).get ⟨i + 1, hi1⟩ = eigRow p := by
      simp at hp hi ⊢
      rw [List.getElem?_eq_getElem (by omega)] at hp
      simp at hp
      rw [hp]
    rw [h5] at h4
    obtain ⟨σ, hσ⟩ := picks_eigRow h4
    refine ⟨σ, fun h => by omega, ?_⟩
    rw [List.getElem?_eq_getElem hi2]
    exact congrArg some hσ

open Classical in
/-- **C95.** `plot_eigenvalue_parts` with `sort_modes=True` (the default): at every position
the drawn modes are a selection of the eigenvalues of that position (the same for both parts;
in the first position all of them in order), a position is shaded if and only if no *selected*
eigenvalue has a positive real part, and in particular every stable position is shaded. -/
theorem C95_eigenvalue_parts_sorted (hm : IsModel form ok f rel) (eig : Eig m)
    (tol : Option ℝ) (h : Heap) (s : ℕ) (stored : Dict SVal) (ov : Dict OVal) (n : ℕ)
    (hs : h[s]? = some (stored.map fun e => (e.1, .num e.2))) (hn : ov.keys.Nodup)
    (hc : Compatible stored ov n) (hok : ok stored ov n)
    (hrel : ∃ k, rel k ∧ Swept stored ov k) (hpos : 0 < n) (hm0 : 0 < m) :
    ∃ plot key ext, ∃ sel : ℕ → Fin m → Fin m, plotEigenvalueParts form eig true true tol s ov h = (.ok plot, h ++ ext) ∧
      FirstSwept stored ov key plot.xs ∧
      plot.imag.length = m ∧ plot.real.length = m ∧ sel 0 = id ∧
      (∀ j : Fin m, ∃ ys zs, plot.imag[j]? = some ys ∧ plot.real[j]? = some zs ∧
        ys.length = n ∧ zs.length = n ∧ ∀ i, i < n →
          (∃ y, ys[i]? = some y ∧ ShownAs tol |(eigenvaluesAt eig f stored ov i (sel i j)).im| y) ∧
          ∃ z, zs[i]? = some z ∧ ShownAs tol (eigenvaluesAt eig f stored ov i (sel i j)).re z) ∧
      plot.stable = some ((List.range n).map fun i =>
        decide (∀ j, (eigenvaluesAt eig f stored ov i (sel i j)).re ≤ 0)) ∧
      (∀ i, i < n → (∀ j, (eigenvaluesAt eig f stored ov i j).re ≤ 0) →
        ∃ l, plot.stable = some l ∧ l[i]? = some true) := by
  obtain ⟨key, xs, ext, hfs, e⟩ := plotEigenvalueParts_run hm eig true true tol h s stored ov n
    hs hn hc hok hrel
  unfold drawEigenvalues at e
  rw [if_neg (by simp; omega)] at e
  obtain ⟨hlen, hrow⟩ := sorted_rows hm0 ((List.range n).map fun i => eig (f (evaluatedAt stored ov i)).1)
    (by simp; omega)
  have hrow' : ∀ i, ∃ σ : Fin m → Fin m, (i = 0 → σ = id) ∧ (i < n → (sortEigenmodes
      (((List.range n).map fun i => eig (f (evaluatedAt stored ov i)).1).map eigRow))[i]? =
        some (eigRow (fun j => (eig (f (evaluatedAt stored ov i)).1).1 (σ j),
          fun i' j => (eig (f (evaluatedAt stored ov i)).1).2 i' (σ j)))) := by
    intro i
    by_cases hi : i < n
    · obtain ⟨σ, h1, h2⟩ := hrow i (eig (f (evaluatedAt stored ov i)).1) (by
        simp [List.getElem?_range hi])
      exact ⟨σ, h1, fun _ => h2⟩
    · exact ⟨id, fun _ => rfl, fun h0 => absurd h0 hi⟩
  choose sel hsel0 hsel using hrow'
  have hst : ((sortEigenmodes (((List.range n).map fun i =>
      eig (f (evaluatedAt stored ov i)).1).map eigRow)).map rowStable) =
      (List.range n).map fun i => decide (∀ j, (eigenvaluesAt eig f stored ov i (sel i j)).re ≤ 0) := by
    apply List.ext_getElem?
    intro i
    by_cases hi : i < n
    · rw [List.getElem?_map, hsel i hi]
      simp only [Option.map_some, List.getElem?_map, List.getElem?_range hi, Option.some.injEq]
      rw [Bool.eq_iff_iff, decide_eq_true_iff]
      simp [rowStable, eigRow, List.mem_ofFn, Spec.eigenvaluesAt]
    · rw [List.getElem?_eq_none (by simp at hlen ⊢; omega), List.getElem?_eq_none (by simp; omega)]
  refine ⟨_, key, ext, sel, e, hfs, by simp, by simp, hsel0 0 rfl, fun j => ?_, ?_, ?_⟩
  · have hj : j.1 < m := j.2
    refine ⟨_, _, by simp [List.getElem?_range hj]; rfl, by simp [List.getElem?_range hj]; rfl,
      by simpa using hlen, by simpa using hlen, fun i hi => ⟨⟨_, by
        rw [List.getElem?_map]
        have := hsel i hi
        rw [List.map_map] at this
        rw [this]; rfl, ?_⟩, _, by
        rw [List.getElem?_map]
        have := hsel i hi
        rw [List.map_map] at this
        rw [this]; rfl, ?_⟩⟩
    · simp only [eigRow, List.getD_eq_getElem?_getD, List.getElem?_ofFn, hj, dif_pos,
        Option.getD_some]
      exact shownAs_hideZero _ _
    · simp only [eigRow, List.getD_eq_getElem?_getD, List.getElem?_ofFn, hj, dif_pos,
        Option.getD_some]
      exact shownAs_hideZero _ _
  · simp only [if_true]; rw [hst]
  · intro i hi hall
    refine ⟨_, by simp only [if_true]; exact congrArg some hst, ?_⟩
    rw [List.getElem?_map, List.getElem?_range hi]
    simp only [Option.map_some, Option.some.injEq, decide_eq_true_iff]
    exact fun j => hall _

/-- **C95.** Without a swept parameter nothing can be drawn: the call raises, whatever the
other arguments are. -/
theorem C95_no_sweep_raises (hm : IsModel form ok f rel) (eig : Eig m) (sort showStable : Bool)
    (tol : Option ℝ) (h : Heap) (s : ℕ) (stored : Dict SVal) (ov : Dict OVal) (n : ℕ)
    (hs : h[s]? = some (stored.map fun e => (e.1, .num e.2))) (hn : ov.keys.Nodup)
    (hc : Compatible stored ov n) (hok : ok stored ov n) (hno : ∀ k, ¬ Swept stored ov k) :
    ∃ ext, plotEigenvalueParts form eig sort showStable tol s ov h =
      (.error (if showStable then .indexError else .unboundLocal), h ++ ext) := by
  classical
  obtain ⟨ext, e⟩ := calcEigen_run hm eig false h s stored ov n hs hn hc hok
  obtain ⟨d, e2, hf⟩ := parse_good (h ++ ext) s stored ov n
    (Holds.append (h := h) (s := s) (stored := stored) hs ext) hn hc
  rw [if_neg (by rintro ⟨k, _, hk⟩; exact hno k hk)] at e
  have hkeys : sweptKeys stored ov = [] := by
    by_contra h0
    obtain ⟨k, hk⟩ := List.exists_mem_of_ne_nil _ h0
    exact hno k (mem_sweptKeys.1 hk)
  refine ⟨ext ++ [d], ?_⟩
  unfold plotEigenvalueParts
  rw [HM.bind_ok e, HM.bind_ok e2, HM.bind_ok (HM.load_run _ _)]
  simp only [hkeys]
  rw [HM.raise_run, List.append_assoc]

end

/-! ### The shading can be wrong -/

/-- `eig` on diagonal matrices. -/
noncomputable def diagEig : Eig 4 := fun A => (fun j => (A j j : ℂ), 1)

theorem diagEig_correct (w : Fin 4 → ℝ) : EigenpairsOf (Matrix.diagonal w) (diagEig (Matrix.diagonal w)) := by
  refine ⟨fun j => ?_, fun j h => ?_, ?_⟩
  · ext i
    simp [diagEig, Matrix.mulVec, dotProduct, Matrix.diagonal_apply, Matrix.one_apply]
    by_cases h : i = j <;> simp [h]
  · have := congrFun h j
    simp [diagEig] at this
  · rw [Matrix.diagonal_map (by simp)]
    simp [diagEig, Matrix.charpoly_diagonal]

/-- **C95 is false of the shading with sorted modes.** Two positions with eigenvalues
`0, -1, -2, -100` and `0, -10, 20, -100`, correctly computed: the second position is shaded as
stable although it has the eigenvalue 20, because `sort_eigenmodes` loses it. -/
theorem C95_shades_unstable (x y : SVal) :
    ∃ (As : List (Matrix (Fin 4) (Fin 4) ℝ)) (es : List (EigPair 4)) (plot : EigenvaluePlot)
      (e : EigPair 4), List.Forall₂ EigenpairsOf As es ∧
      drawEigenvalues true true none [x, y] es = .ok plot ∧
      plot.stable = some [true, true] ∧ es[1]? = some e ∧ e.1 2 = 20 := by
  let w0 : Fin 4 → ℝ := ![0, -1, -2, -100]
  let w1 : Fin 4 → ℝ := ![0, -10, 20, -100]
  obtain ⟨plot, hp, hst⟩ : ∃ plot, drawEigenvalues true true none [x, y]
      [diagEig (diagonal w0), diagEig (diagonal w1)] = .ok plot ∧ plot.stable = some ((sortEigenmodes
        ([diagEig (diagonal w0), diagEig (diagonal w1)].map eigRow)).map rowStable) := by
    unfold drawEigenvalues
    rw [if_neg (by simp)]
    exact ⟨_, rfl, rfl⟩
  refine ⟨[diagonal w0, diagonal w1], [diagEig (diagonal w0), diagEig (diagonal w1)], plot,
    diagEig (diagonal w1), List.Forall₂.cons (diagEig_correct _) (List.Forall₂.cons (diagEig_correct _)
      List.Forall₂.nil), hp, ?_, rfl, ?_⟩
  · have hs : (sortEigenmodes ([diagEig (diagonal w0), diagEig (diagonal w1)].map eigRow)).map
        (fun r => r.evals) =
        [[((0 : ℝ) : ℂ), ((-1 : ℝ) : ℂ), ((-2 : ℝ) : ℂ), ((-100 : ℝ) : ℂ)],
         [((0 : ℝ) : ℂ), ((-10 : ℝ) : ℂ), ((-10 : ℝ) : ℂ), ((-100 : ℝ) : ℂ)]] := by
      have hm : matchRow [((0 : ℝ) : ℂ), ((-10 : ℝ) : ℂ), ((20 : ℝ) : ℂ), ((-100 : ℝ) : ℂ)]
          [((0 : ℝ) : ℂ), ((-1 : ℝ) : ℂ), ((-2 : ℝ) : ℂ), ((-100 : ℝ) : ℂ)] [] = [0, 1, 1, 3] := by
        simp only [matchRow, chooseIdx, List.map_cons, List.map_nil, eigDist_ofReal]
        norm_num [argmin, listMax]
      have e0 : (List.ofFn (diagEig (diagonal w0)).1) =
          [((0 : ℝ) : ℂ), ((-1 : ℝ) : ℂ), ((-2 : ℝ) : ℂ), ((-100 : ℝ) : ℂ)] := by
        simp [diagEig, w0, List.ofFn_succ]
      have e1 : (List.ofFn (diagEig (diagonal w1)).1) =
          [((0 : ℝ) : ℂ), ((-10 : ℝ) : ℂ), ((20 : ℝ) : ℂ), ((-100 : ℝ) : ℂ)] := by
        simp [diagEig, w1, List.ofFn_succ]
      simp only [List.map_cons, List.map_nil, sortEigenmodes, sortFrom, eigRow, e0, e1, hm, takeRow]
      simp
    have hr : ∀ l : List (EigRow (Fin 4 → ℂ)), l.map rowStable =
        (l.map fun r => r.evals).map fun ev => rowStable (m := 4) ⟨ev, []⟩ := by
      intro l; rw [List.map_map]; rfl
    rw [hst, hr, hs]
    simp [rowStable]
  · simp [diagEig, w1]

/-- The hypotheses of the C95 and C96 theorems are met by the example bicycle, whose speed and
mass vary over three values. -/
theorem example_eigen_usable : Compatible (exampleSet .meijaard) exampleOverrides 3 ∧
    exampleOverrides.keys.Nodup ∧ (∃ k, k ∈ relevantKeys ∧ Swept (exampleSet .meijaard) exampleOverrides k) ∧
    (∀ k ∈ whippleKeys, (exampleSet .meijaard).has k = true) ∧
    FirstSwept (exampleSet .meijaard) exampleOverrides "v" [⟨.pyFloat, 1⟩, ⟨.pyFloat, 2⟩, ⟨.other, 3⟩] := by
  obtain ⟨h1, h2, h3, h4⟩ := example_overrides_usable
  refine ⟨h1, h2, ⟨"mB", by decide, h3⟩, h4, [], _, rfl, ?_, by simp⟩
  rw [example_has]; decide

end BP
