import Mathlib.Analysis.Complex.Polynomial.Basic
import Verif.Model.MainPlots
import Verif.Props.Canonical
import Verif.Props.Sorting
import Verif.Props.Eigen
import Verif.Props.EigenPlots
import Verif.Lemmas.RouthHurwitz

/-!
# Properties of Bicycle.eig and of the plots over speed: C107 to C110
-/

set_option linter.unusedSimpArgs false

namespace BP

open Matrix Spec

/-! ## numpy.linalg.eig can be correct -/

/-- Every real matrix has eigenvalues and eigenvectors as expected of `numpy.linalg.eig`. -/
theorem exists_eigenpairs {m : ℕ} (A : Matrix (Fin m) (Fin m) ℝ) : ∃ e, EigenpairsOf A e := by
  set B := A.map Complex.ofReal with hB
  have hs : B.charpoly.Splits := IsAlgClosed.splits _
  have hcard : B.charpoly.roots.card = m := by
    rw [← hs.natDegree_eq_card_roots, Matrix.charpoly_natDegree_eq_dim, Fintype.card_fin]
  have hlen : B.charpoly.roots.toList.length = m := by simp [hcard]
  let l : Fin m → ℂ := fun j => B.charpoly.roots.toList.get (j.cast hlen.symm)
  have hprod : B.charpoly = ∏ j, (Polynomial.X - Polynomial.C (l j)) := by
    have h1 := hs.eq_prod_roots_of_monic (Matrix.charpoly_monic B)
    have h2 : B.charpoly.roots = Finset.univ.val.map l := by
      conv_lhs => rw [← Multiset.coe_toList B.charpoly.roots]
      have h3 : List.ofFn l = B.charpoly.roots.toList := by
        apply List.ext_get
        · simp [hcard]
        · intro n h1 h2
          simp [l]
      rw [← h3]
      exact (Fin.univ_val_map l).symm
    rw [h2] at h1
    rw [h1]
    rw [Multiset.map_map]
    rfl
  have hev : ∀ j, ∃ x : Fin m → ℂ, x ≠ 0 ∧ B *ᵥ x = l j • x := by
    intro j
    have h0 : (Matrix.scalar (Fin m) (l j) - B).det = 0 := by
      rw [← Matrix.eval_charpoly, hprod, Polynomial.eval_prod]
      exact Finset.prod_eq_zero (Finset.mem_univ j) (by simp)
    obtain ⟨x, hx, h⟩ := Matrix.exists_mulVec_eq_zero_iff.2 h0
    refine ⟨x, hx, ?_⟩
    rw [Matrix.sub_mulVec, sub_eq_zero] at h
    rw [← h]
    ext i
    simp [Matrix.scalar_apply, Matrix.mulVec_diagonal]
  choose x hx hxe using hev
  exact ⟨(l, fun i j => x j i), hxe, hx, hprod⟩

/-- A correct `numpy.linalg.eig`. -/
theorem exists_correct_eig (m : ℕ) : ∃ eig : Eig m, ∀ A, EigenpairsOf A (eig A) := by
  choose e he using fun A : Matrix (Fin m) (Fin m) ℝ => exists_eigenpairs A
  exact ⟨e, he⟩

/-! ## C107: the eigenvalues of a Bicycle -/

/-- The quadratic matrix polynomial `l² M + l v C1 + g K0 + v² K2` of the equations of motion. -/
def Spec.pencil (c : Canon) (v g : ℝ) (l : ℂ) : Mat2 ℂ :=
  l ^ 2 • toC c.M + (l * v) • toC c.C1 + (g : ℂ) • toC c.K0 + ((v : ℂ) ^ 2) • toC c.K2

/-- The eigenvalues and eigenvectors are the modes `q exp(l t)` of the equations of motion at
speed `v`: for each column `(q, q')` the rates are `l q`, `q` is not zero and satisfies the
equations; and the four eigenvalues are the roots of the determinant with multiplicity. -/
def Spec.ModesAt (c : Canon) (v g : ℝ) (e : EigPair 4) : Prop :=
  (∀ j, ![e.2 2 j, e.2 3 j] = e.1 j • ![e.2 0 j, e.2 1 j] ∧ ![e.2 0 j, e.2 1 j] ≠ 0 ∧
    pencil c v g (e.1 j) *ᵥ ![e.2 0 j, e.2 1 j] = 0) ∧
  ∀ l : ℂ, (pencil c v g l).det = c.M.det * ∏ j, (l - e.1 j)

theorem modesAt_of_eigenpairs (c : Canon) (v g : ℝ) (hM : c.M.det ≠ 0) (e : EigPair 4)
    (he : EigenpairsOf (abA c.M c.C1 c.K0 c.K2 v g) e) : ModesAt c v g e := by
  obtain ⟨h1, h2, h3⟩ := he
  have hM' : (toC c.M).det ≠ 0 := by rw [det_toC]; exact_mod_cast hM
  have hA : (abA c.M c.C1 c.K0 c.K2 v g).map Complex.ofReal =
      abA (toC c.M) (toC c.C1) (toC c.K0) (toC c.K2) v g := abA_toC _ _ _ _ _ _
  refine ⟨fun j => ?_, fun l => ?_⟩
  · have hj := h1 j
    have hn := h2 j
    rw [hA] at hj
    set x : Fin 4 → ℂ := fun i => e.2 i j with hx
    have x0 : e.2 0 j = x 0 := rfl
    have x1 : e.2 1 j = x 1 := rfl
    have x2 : e.2 2 j = x 2 := rfl
    have x3 : e.2 3 j = x 3 := rfl
    rw [x0, x1, x2, x3]
    set l := e.1 j
    have r0 := congrFun hj 0
    have r1 := congrFun hj 1
    have r2 := congrFun hj 2
    have r3 := congrFun hj 3
    simp [abA, Matrix.mulVec, dotProduct, Fin.sum_univ_four] at r0 r1 r2 r3
    have hr : (![x 2, x 3] : Fin 2 → ℂ) = l • ![x 0, x 1] := by
      funext i; fin_cases i <;> simp [r0, r1]
    refine ⟨hr, ?_, ?_⟩
    · intro h0
      apply hn
      have a0 := congrFun h0 0
      have a1 := congrFun h0 1
      simp at a0 a1
      funext i
      fin_cases i
      · exact a0
      · exact a1
      · show x 2 = 0; rw [r0, a0, mul_zero]
      · show x 3 = 0; rw [r1, a1, mul_zero]
    · have key : l ^ 2 • (![x 0, x 1] : Fin 2 → ℂ) =
          a21 (toC c.M) (toC c.K0) (toC c.K2) v g *ᵥ ![x 0, x 1] +
          a22 (toC c.M) (toC c.C1) v *ᵥ (l • ![x 0, x 1]) := by
        rw [← hr]
        funext i
        fin_cases i
        · simp [Matrix.mulVec, dotProduct, Fin.sum_univ_two]
          linear_combination -r2 - l * r0
        · simp [Matrix.mulVec, dotProduct, Fin.sum_univ_two]
          linear_combination -r3 - l * r1
      have hm := congrArg (fun z => toC c.M *ᵥ z) key
      simp only [a21, a22, Matrix.neg_mulVec, Matrix.mulVec_add, Matrix.mulVec_neg,
        Matrix.mulVec_mulVec, ← Matrix.mul_assoc, invM_mul ℂ _ hM', Matrix.one_mul,
        Matrix.mulVec_smul] at hm
      unfold pencil
      simp only [Matrix.add_mulVec, Matrix.smul_mulVec] at hm ⊢
      rw [hm]
      simp only [smul_add, smul_neg, Matrix.smul_mulVec, smul_smul]
      abel
  · have h4 := congrArg (Polynomial.eval l) h3
    rw [Matrix.eval_charpoly, Polynomial.eval_prod, hA] at h4
    have h5 := det_sub_abA (toC c.M) (toC c.C1) (toC c.K0) (toC c.K2) v g l hM'
    have h6 : (Matrix.scalar (Fin 4)) l = l • (1 : Matrix (Fin 4) (Fin 4) ℂ) := by
      rw [Matrix.smul_one_eq_diagonal]; rfl
    rw [h6] at h4
    rw [h4, det_toC] at h5
    simp only [Polynomial.eval_sub, Polynomial.eval_X, Polynomial.eval_C] at h5
    unfold pencil
    rw [← h5, mul_comm]

theorem bikeEig_run (eig : Eig 4) (params : Dict (Dict ℝ)) (par : Dict ℝ) (g : ℝ)
    (hp : params.find? "Benchmark" = some par) (hk : ∀ key ∈ canonKeys, par.has key = true)
    (hg : par.find? "g" = some g) (vs : List ℝ) :
    bikeEig eig params (.seq vs) = .ok (vs.map fun v =>
      eig (abA (Bench.ofDict par).canon.M (Bench.ofDict par).canon.C1 (Bench.ofDict par).canon.K0
        (Bench.ofDict par).canon.K2 v g)) := by
  unfold bikeEig
  have h1 : Dict.get params "Benchmark" = .ok par := by simp [Dict.get, hp]
  have h2 : Dict.get (Dict.set (Dict.set par "IRzz" (Dict.getD par "IRxx" 0)) "IFzz"
      (Dict.getD par "IFxx" 0)) "g" = .ok g := by
    simp [Dict.get, Dict.find?_set, hg]
  rw [h1]
  simp only [Except.bind, canonical_of_keys par hk, Speeds.array, h2, Except.map]
  exact mapM_eq_map fun _ _ => rfl

/-- **C107.** For a Bicycle with a complete Benchmark set, an invertible mass matrix and a
correct `numpy.linalg.eig`, `eig(speeds)` returns for every speed, in the order given, the modes
of the equations of motion at that speed. -/
theorem C107_eig (eig : Eig 4) (params : Dict (Dict ℝ)) (par : Dict ℝ) (g : ℝ)
    (hp : params.find? "Benchmark" = some par) (hk : ∀ key ∈ canonKeys, par.has key = true)
    (hg : par.find? "g" = some g) (hM : (Bench.ofDict par).canon.M.det ≠ 0)
    (heig : ∀ A, EigenpairsOf A (eig A)) (vs : List ℝ) :
    ∃ es, bikeEig eig params (.seq vs) = .ok es ∧
      List.Forall₂ (fun v e => ModesAt (Bench.ofDict par).canon v g e) vs es := by
  refine ⟨_, bikeEig_run eig params par g hp hk hg vs, ?_⟩
  rw [List.forall₂_map_right_iff, List.forall₂_same]
  exact fun v _ => modesAt_of_eigenpairs _ v g hM _ (heig _)

/-- **C107.** A single float is treated like a list of one speed; an integer never works. -/
theorem C107_single_speed (eig : Eig 4) (params : Dict (Dict ℝ)) (v : ℝ) (n : ℤ) :
    bikeEig eig params (.float v) = bikeEig eig params (.seq [v]) ∧
    ∃ e, bikeEig eig params (.int n) = .error e := by
  refine ⟨rfl, ?_⟩
  unfold bikeEig
  cases Dict.get params "Benchmark" with
  | error e => exact ⟨e, rfl⟩
  | ok par =>
    simp only [Except.bind]
    cases (benchmarkParToCanonical par).2 with
    | error e => exact ⟨e, rfl⟩
    | ok m => exact ⟨_, rfl⟩

/-! ## C108: the shaded range of speeds -/

/-- The upright motion at speed `v` is self-stable: all exponents `l` of solutions `q exp(l t)`
of the equations of motion have a negative real part. -/
def Spec.SelfStable (c : Canon) (v g : ℝ) : Prop :=
  ∀ l : ℂ, (pencil c v g l).det = 0 → l.re < 0

theorem selfStable_iff (c : Canon) (v g : ℝ) (hM : c.M.det ≠ 0) (e : EigPair 4)
    (he : EigenpairsOf (abA c.M c.C1 c.K0 c.K2 v g) e) :
    SelfStable c v g ↔ ∀ j, (e.1 j).re < 0 := by
  have h := (modesAt_of_eigenpairs c v g hM e he).2
  have hM' : (c.M.det : ℂ) ≠ 0 := by exact_mod_cast hM
  constructor
  · intro hs j
    refine hs _ ?_
    rw [h]
    exact mul_eq_zero_of_right _ (Finset.prod_eq_zero (Finset.mem_univ j) (sub_self _))
  · intro hj l hl
    rw [h] at hl
    obtain ⟨j, _, hj0⟩ := Finset.prod_eq_zero_iff.1 ((mul_eq_zero.1 hl).resolve_left hM')
    rw [sub_eq_zero.1 hj0]
    exact hj j

theorem listMin_le {l : List ℝ} {x : ℝ} (h : x ∈ l) : listMin l ≤ x := by
  induction l with
  | nil => cases h
  | cons a l ih =>
    cases l with
    | nil => simp only [List.mem_singleton] at h; simp [listMin, h]
    | cons b l =>
      rcases List.mem_cons.1 h with rfl | h
      · exact min_le_left _ _
      · exact (min_le_right _ _).trans (ih h)

theorem listMin_mem {l : List ℝ} (h : l ≠ []) : listMin l ∈ l := by
  induction l with
  | nil => exact absurd rfl h
  | cons a l ih =>
    cases l with
    | nil => simp [listMin]
    | cons b l =>
      rcases min_choice a (listMin (b :: l)) with h | h
      · rw [show listMin (a :: b :: l) = min a (listMin (b :: l)) from rfl, h]; simp
      · rw [show listMin (a :: b :: l) = min a (listMin (b :: l)) from rfl, h]
        exact List.mem_cons_of_mem _ (ih (by simp))

theorem mem_le_listMax {l : List ℝ} {x : ℝ} (h : x ∈ l) : x ≤ listMax l := by
  obtain ⟨i, hi, rfl⟩ := List.getElem_of_mem h
  simpa [List.getD_eq_getElem?_getD, hi] using le_listMax l i hi

theorem mem_dampedSpeeds {vs re : List ℝ} {v : ℝ} :
    v ∈ dampedSpeeds vs re ↔ ∃ (i : ℕ) (r : ℝ), vs[i]? = some v ∧ re[i]? = some r ∧ r < 0 := by
  unfold dampedSpeeds
  simp only [List.mem_map, List.mem_filter, decide_eq_true_eq, Prod.exists, exists_and_right,
    exists_eq_right]
  constructor
  · rintro ⟨r, hm, hr⟩
    obtain ⟨i, hi⟩ := List.mem_iff_getElem?.1 hm
    obtain ⟨h1, h2⟩ := List.getElem?_zip_eq_some.1 hi
    exact ⟨i, r, h1, h2, hr⟩
  · rintro ⟨i, r, h1, h2, hr⟩
    exact ⟨r, List.mem_iff_getElem?.2 ⟨i, List.getElem?_zip_eq_some.2 ⟨h1, h2⟩⟩, hr⟩

/-- The four curves of real parts, in the order of the legend. -/
noncomputable def realTraces (rows : List (EigRow (Fin 4 → ℂ))) : List (List ℝ) :=
  [(sortModes rows).1.map fun e => (e.1.getD 0 0).re,
   (sortModes rows).1.map fun e => (e.1.getD 1 0).re,
   (sortModes rows).2.1.map fun e => e.1.re,
   (sortModes rows).2.2.map fun e => e.1.re]

theorem realTraces_eq (rows : List (EigRow (Fin 4 → ℂ))) :
    ((speedTraces rows).take 4).map Curve.ys = realTraces rows := rfl

/-- The value of `stabilityRegion`, for the set of its four curves. -/
theorem stabilityRegion_cases (vs : List ℝ) (a b c d : List ℝ) :
    ((∃ x ∈ [a, b, c, d], dampedSpeeds vs x = []) ∧
      stabilityRegion vs a b c d = .error .unboundLocal) ∨
    ((∀ x ∈ [a, b, c, d], dampedSpeeds vs x ≠ []) ∧ ∃ start stop,
      (∀ x ∈ [a, b, c, d], listMin (dampedSpeeds vs x) ≤ start) ∧
      (∃ x ∈ [a, b, c, d], start = listMin (dampedSpeeds vs x)) ∧
      (∀ x ∈ [a, b, c, d], stop ≤ listMax (dampedSpeeds vs x)) ∧
      (∃ x ∈ [a, b, c, d], stop = listMax (dampedSpeeds vs x)) ∧
      ((stop - start < 0.0001 ∧ stabilityRegion vs a b c d = .ok none) ∨
       (0.0001 ≤ stop - start ∧ stabilityRegion vs a b c d = .ok (some (start, stop))))) := by
  classical
  set D := [b, d, c, a].map (dampedSpeeds vs) with hD
  have hmem : ∀ x, x ∈ [a, b, c, d] ↔ x ∈ [b, d, c, a] := by intro x; simp; tauto
  by_cases h : ∃ x ∈ [a, b, c, d], dampedSpeeds vs x = []
  · refine Or.inl ⟨h, ?_⟩
    unfold stabilityRegion
    simp only
    rw [if_pos]
    obtain ⟨x, hx, h0⟩ := h
    rw [List.any_eq_true]
    exact ⟨_, List.mem_map.2 ⟨x, (hmem x).1 hx, rfl⟩, by simp [h0]⟩
  · push Not at h
    refine Or.inr ⟨h, listMax (D.map listMin), listMin (D.map listMax), ?_, ?_, ?_, ?_, ?_⟩
    · intro x hx
      exact mem_le_listMax (List.mem_map.2 ⟨_, List.mem_map.2 ⟨x, (hmem x).1 hx, rfl⟩, rfl⟩)
    · have h1 : listMax (D.map listMin) ∈ D.map listMin := listMax_mem _ (by simp [hD])
      obtain ⟨y, hy, e⟩ := List.mem_map.1 h1
      obtain ⟨x, hx, rfl⟩ := List.mem_map.1 hy
      exact ⟨x, (hmem x).2 hx, e.symm⟩
    · intro x hx
      exact listMin_le (List.mem_map.2 ⟨_, List.mem_map.2 ⟨x, (hmem x).1 hx, rfl⟩, rfl⟩)
    · have h1 : listMin (D.map listMax) ∈ D.map listMax := listMin_mem (by simp [hD])
      obtain ⟨y, hy, e⟩ := List.mem_map.1 h1
      obtain ⟨x, hx, rfl⟩ := List.mem_map.1 hy
      exact ⟨x, (hmem x).2 hx, e.symm⟩
    · have hany : ¬ (D.any fun x => decide (x = [])) = true := by
        rw [List.any_eq_true]
        rintro ⟨y, hy, h0⟩
        obtain ⟨x, hx, rfl⟩ := List.mem_map.1 hy
        exact h x ((hmem x).2 hx) (by simpa using h0)
      unfold stabilityRegion
      simp only
      rw [if_neg hany]
      split_ifs with h1 h2
      · exact Or.inl ⟨by norm_num; linarith, rfl⟩
      · exact Or.inl ⟨h2, rfl⟩
      · exact Or.inr ⟨not_lt.1 h2, rfl⟩

/-! ### The rows of a figure -/

/-- A Bicycle whose eigenvalues can be computed: its Benchmark set is complete, with gravity `g`
and canonical matrices `c`, and the mass matrix is invertible. -/
structure Spec.HasModel (params : Dict (Dict ℝ)) (c : Canon) (g : ℝ) : Prop where
  ex : ∃ par, params.find? "Benchmark" = some par ∧ (∀ key ∈ canonKeys, par.has key = true) ∧
    par.find? "g" = some g ∧ (Bench.ofDict par).canon = c
  det : c.M.det ≠ 0

/-- The eigenvalues and eigenvectors at one speed. -/
noncomputable def eigAt (eig : Eig 4) (c : Canon) (g v : ℝ) : EigPair 4 :=
  eig (abA c.M c.C1 c.K0 c.K2 v g)

theorem speedRows_run (eig : Eig 4) {params : Dict (Dict ℝ)} {c : Canon} {g : ℝ}
    (hp : HasModel params c g) (speeds : List ℝ) :
    speedRows eig params speeds = .ok ((npSort speeds).map fun v => eigRow (eigAt eig c g v)) := by
  obtain ⟨par, h1, h2, h3, h4⟩ := hp.ex
  unfold speedRows
  rw [bikeEig_run eig params par g h1 h2 h3, h4]
  simp [Except.map, eigAt, Function.comp_def]

theorem npSort_ne_nil {speeds : List ℝ} (h : speeds ≠ []) : npSort speeds ≠ [] := by
  intro h0
  have := (List.perm_insertionSort (· ≤ ·) speeds).length_eq
  rw [show speeds.insertionSort (· ≤ ·) = [] from h0] at this
  exact h (List.length_eq_zero_iff.1 this.symm)

theorem mem_npSort {speeds : List ℝ} {v : ℝ} : v ∈ npSort speeds ↔ v ∈ speeds :=
  (List.perm_insertionSort (· ≤ ·) speeds).mem_iff

/-- The curves of real parts pass through eigenvalues of their speed. -/
theorem realTraces_pick (eig : Eig 4) (c : Canon) (g : ℝ) (vs : List ℝ) (hne : vs ≠ []) :
    ∀ x ∈ realTraces (vs.map fun v => eigRow (eigAt eig c g v)), x.length = vs.length ∧
      ∀ (i : ℕ) v, vs[i]? = some v → ∃ j, x[i]? = some ((eigAt eig c g v).1 j).re := by
  obtain ⟨hlen, hrow⟩ := sorted_rows (by norm_num) (vs.map fun v => eigAt eig c g v) (by simpa using hne)
  rw [List.map_map] at hlen hrow
  simp only [List.length_map] at hlen
  have hrow' : ∀ (i : ℕ) v, vs[i]? = some v → ∃ σ : Fin 4 → Fin 4,
      (sortEigenmodes (vs.map fun v => eigRow (eigAt eig c g v)))[i]? =
        some (eigRow (fun j => (eigAt eig c g v).1 (σ j), fun i j => (eigAt eig c g v).2 i (σ j))) := by
    intro i v hv
    obtain ⟨σ, _, h⟩ := hrow i (eigAt eig c g v) (by simp [hv])
    exact ⟨σ, h⟩
  intro x hx
  simp only [realTraces, sortModes, List.map_map, List.mem_cons, List.not_mem_nil, or_false] at hx
  rcases hx with rfl | rfl | rfl | rfl
  all_goals
    refine ⟨by rw [List.length_map]; exact hlen, fun i v hv => ?_⟩
    obtain ⟨σ, h⟩ := hrow' i v hv
    rw [List.getElem?_map, h]
    simp only [Option.map_some, Function.comp_apply, eigRow]
  · exact ⟨σ 2, by simp [List.ofFn_succ]⟩
  · exact ⟨σ 3, by simp [List.ofFn_succ]⟩
  · exact ⟨σ 1, by simp [List.ofFn_succ]⟩
  · exact ⟨σ 0, by simp [List.ofFn_succ]⟩

theorem plotSpeedFigure_run (eig : Eig 4) {params : Dict (Dict ℝ)} {c : Canon} {g : ℝ}
    (hp : HasModel params c g) (speeds : List ℝ) (hne : speeds ≠ []) :
    ∃ rows, rows = ((npSort speeds).map fun v => eigRow (eigAt eig c g v)) ∧
      plotSpeedFigure eig params false false speeds = .ok ⟨npSort speeds, speedTraces rows, none⟩ ∧
      ∃ w1 w2 ca cs, realTraces rows = [w1, w2, ca, cs] ∧
        plotSpeedFigure eig params false true speeds =
          (stabilityRegion (npSort speeds) w1 w2 ca cs).map fun r =>
            ⟨npSort speeds, speedTraces rows, some r⟩ := by
  refine ⟨_, rfl, ?_, _, _, _, _, rfl, ?_⟩
  all_goals
    unfold plotSpeedFigure
    rw [speedRows_run eig hp]
    simp only [Except.bind, Bool.false_eq_true, if_false]
    rw [if_neg (by simpa using npSort_ne_nil hne)]
    try rfl

/-- **C108.** The eight curves: at each sampled speed, in increasing order, the four curves of real
parts show eigenvalues of that speed and the four curves of imaginary parts show the absolute
imaginary parts of the same eigenvalues.  At the lowest speed each eigenvalue is shown exactly once
(at the others the matching of modes may show one twice, see C07). -/
theorem C108_curves (eig : Eig 4) {params : Dict (Dict ℝ)} {c : Canon} {g : ℝ}
    (hp : HasModel params c g) (speeds : List ℝ) (hne : speeds ≠ []) :
    ∃ fig, plotSpeedFigure eig params false false speeds = .ok fig ∧
      fig.speeds = npSort speeds ∧
      fig.curves.map Curve.label = ["Re Weave", "Re Weave", "Re Capsize", "Re Castering",
        "Im Weave", "Im Weave", "Im Capsize", "Im Castering"] ∧
      (∀ cu ∈ fig.curves, cu.ys.length = speeds.length) ∧
      ∀ (i : ℕ) v, (npSort speeds)[i]? = some v → ∃ σ : Fin 4 → Fin 4, (i = 0 → Function.Bijective σ) ∧
        fig.curves.map (fun cu => cu.ys[i]?) =
          (List.ofFn fun j => some ((eigAt eig c g v).1 (σ j)).re) ++
            List.ofFn fun j => some |((eigAt eig c g v).1 (σ j)).im| := by
  obtain ⟨rows, hrows, h0, _⟩ := plotSpeedFigure_run eig hp speeds hne
  refine ⟨_, h0, rfl, rfl, ?_, ?_⟩
  all_goals
    obtain ⟨hlen, hrow⟩ := sorted_rows (by norm_num)
      ((npSort speeds).map fun v => eigAt eig c g v) (by simpa using npSort_ne_nil hne)
    rw [List.map_map] at hlen hrow
    have hr : rows = List.map (eigRow ∘ fun v => eigAt eig c g v) (npSort speeds) := hrows
    rw [← hr] at hlen hrow
    simp only [List.length_map] at hlen
  · have hl : (npSort speeds).length = speeds.length :=
      (List.perm_insertionSort (· ≤ ·) speeds).length_eq
    intro cu hcu
    simp only [speedTraces, sortModes, List.mem_cons, List.not_mem_nil, or_false] at hcu
    rcases hcu with rfl | rfl | rfl | rfl | rfl | rfl | rfl | rfl <;>
      simp [hlen, hl]
  · intro i v hv
    obtain ⟨σ, hσ, h⟩ := hrow i (eigAt eig c g v) (by simp [hv])
    refine ⟨σ ∘ ![2, 3, 1, 0], fun h0 => by rw [hσ h0]; decide, ?_⟩
    simp [speedTraces, sortModes, h, eigRow, List.ofFn_succ]

/-- **C108.** No self-stable sample is left out: if a range is shaded, every sampled speed at
which the bicycle is self-stable lies in it; if the annotation says that there is no region, then
the self-stable samples lie within 0.0001 of each other; and if drawing fails, no sample is
self-stable. -/
theorem C108_stable_speeds_shaded (eig : Eig 4) (heig : ∀ A, EigenpairsOf A (eig A))
    {params : Dict (Dict ℝ)} {c : Canon} {g : ℝ} (hp : HasModel params c g) (speeds : List ℝ)
    (hne : speeds ≠ []) :
    (∀ fig a b, plotSpeedFigure eig params false true speeds = .ok fig →
      fig.region = some (some (a, b)) → a < b ∧ a ∈ speeds ∧ b ∈ speeds ∧
        ∀ v ∈ speeds, SelfStable c v g → a ≤ v ∧ v ≤ b) ∧
    (∀ fig, plotSpeedFigure eig params false true speeds = .ok fig → fig.region = some none →
      ∀ v ∈ speeds, ∀ v' ∈ speeds, SelfStable c v g → SelfStable c v' g → |v - v'| < 0.0001) ∧
    ∀ err, plotSpeedFigure eig params false true speeds = .error err →
      err = .unboundLocal ∧ ∀ v ∈ speeds, ¬ SelfStable c v g := by
  obtain ⟨rows, hrows, _, w1, w2, ca, cs, htr, hrun⟩ := plotSpeedFigure_run eig hp speeds hne
  have hpick := realTraces_pick eig c g (npSort speeds) (npSort_ne_nil hne)
  rw [← hrows, htr] at hpick
  have hin : ∀ v ∈ speeds, SelfStable c v g → ∀ x ∈ [w1, w2, ca, cs],
      v ∈ dampedSpeeds (npSort speeds) x := by
    intro v hv hs x hx
    obtain ⟨i, hi⟩ := List.mem_iff_getElem?.1 (mem_npSort.2 hv)
    obtain ⟨j, hj⟩ := (hpick x hx).2 i v hi
    exact mem_dampedSpeeds.2 ⟨i, _, hi, hj, (selfStable_iff c v g hp.det _ (heig _)).1 hs j⟩
  have hsub : ∀ x v, v ∈ dampedSpeeds (npSort speeds) x → v ∈ speeds := by
    intro x v hv
    obtain ⟨i, r, h1, _⟩ := mem_dampedSpeeds.1 hv
    exact mem_npSort.1 (List.mem_of_getElem? h1)
  rw [hrun]
  rcases stabilityRegion_cases (npSort speeds) w1 w2 ca cs with ⟨⟨x, hx, h0⟩, e⟩ |
    ⟨hnn, start, stop, hs1, ⟨xs, hxs, hs2⟩, ht1, ⟨xt, hxt, ht2⟩, hcase⟩
  · rw [e]
    refine ⟨by intro _ _ _ h; simp [Except.map] at h, by intro _ h; simp [Except.map] at h, ?_⟩
    intro err h
    simp only [Except.map, Except.error.injEq] at h
    refine ⟨h.symm, fun v hv hst => ?_⟩
    have := hin v hv hst x hx
    rw [h0] at this; cases this
  · have hbd : ∀ v ∈ speeds, SelfStable c v g → start ≤ v ∧ v ≤ stop := by
      intro v hv hst
      constructor
      · rw [hs2]; exact listMin_le (hin v hv hst xs hxs)
      · rw [ht2]; exact mem_le_listMax (hin v hv hst xt hxt)
    rcases hcase with ⟨hlt, e⟩ | ⟨hge, e⟩
    · rw [e]
      refine ⟨?_, ?_, by intro _ h; simp [Except.map] at h⟩
      · intro fig a b h hr
        simp only [Except.map, Except.ok.injEq] at h
        subst h; simp at hr
      · intro fig h _ v hv v' hv' hst hst'
        have h1 := hbd v hv hst
        have h2 := hbd v' hv' hst'
        rw [abs_lt]
        constructor <;> linarith
    · rw [e]
      refine ⟨?_, ?_, by intro _ h; simp [Except.map] at h⟩
      · intro fig a b h hr
        simp only [Except.map, Except.ok.injEq] at h
        subst h
        simp only [Option.some.injEq, Prod.mk.injEq] at hr
        obtain ⟨rfl, rfl⟩ := hr
        refine ⟨?_, ?_, ?_, hbd⟩
        · have : (0 : ℝ) < 0.0001 := by norm_num
          linarith
        · rw [hs2]; exact hsub _ _ (listMin_mem (hnn xs hxs))
        · rw [ht2]; exact hsub _ _ (listMax_mem _ (hnn xt hxt))
      · intro fig h hr
        simp only [Except.map, Except.ok.injEq] at h
        subst h; simp at hr

/-- **C108.** Drawing fails exactly if one of the four curves of real parts is nowhere negative;
without the shading it never fails. -/
theorem C108_fails_iff (eig : Eig 4) {params : Dict (Dict ℝ)} {c : Canon} {g : ℝ}
    (hp : HasModel params c g) (speeds : List ℝ) (hne : speeds ≠ []) :
    ∃ fig, plotSpeedFigure eig params false false speeds = .ok fig ∧
      ((∃ err, plotSpeedFigure eig params false true speeds = .error err) ↔
        ∃ curve ∈ fig.curves.take 4, ∀ y ∈ curve.ys, 0 ≤ y) := by
  obtain ⟨rows, hrows, h0, w1, w2, ca, cs, htr, hrun⟩ := plotSpeedFigure_run eig hp speeds hne
  have hpick := realTraces_pick eig c g (npSort speeds) (npSort_ne_nil hne)
  rw [← hrows, htr] at hpick
  refine ⟨_, h0, ?_⟩
  have hem : ∀ x ∈ [w1, w2, ca, cs], (dampedSpeeds (npSort speeds) x = [] ↔ ∀ y ∈ x, 0 ≤ y) := by
    intro x hx
    constructor
    · intro h y hy
      by_contra hc
      push Not at hc
      obtain ⟨i, hi⟩ := List.mem_iff_getElem?.1 hy
      have hlt : i < (npSort speeds).length := by
        rw [← (hpick x hx).1]; exact (List.getElem?_eq_some_iff.1 hi).1
      have : (npSort speeds)[i] ∈ dampedSpeeds (npSort speeds) x :=
        mem_dampedSpeeds.2 ⟨i, y, by simp [hlt], hi, hc⟩
      rw [h] at this; cases this
    · intro h
      rw [List.eq_nil_iff_forall_not_mem]
      intro v hv
      obtain ⟨i, r, _, h2, h3⟩ := mem_dampedSpeeds.1 hv
      have := h r (List.mem_of_getElem? h2)
      linarith
  have hcurve : (∃ curve ∈ (speedTraces rows).take 4, ∀ y ∈ curve.ys, 0 ≤ y) ↔
      ∃ x ∈ [w1, w2, ca, cs], dampedSpeeds (npSort speeds) x = [] := by
    rw [← htr, ← realTraces_eq]
    constructor
    · rintro ⟨cu, hcu, h⟩
      have hm : cu.ys ∈ ((speedTraces rows).take 4).map Curve.ys := List.mem_map.2 ⟨cu, hcu, rfl⟩
      exact ⟨_, hm, (hem _ (by rw [← htr, ← realTraces_eq]; exact hm)).2 h⟩
    · rintro ⟨x, hx, h⟩
      obtain ⟨cu, hcu, rfl⟩ := List.mem_map.1 hx
      exact ⟨cu, hcu, (hem _ (by rw [← htr, ← realTraces_eq]; exact hx)).1 h⟩
  rw [hcurve, hrun]
  rcases stabilityRegion_cases (npSort speeds) w1 w2 ca cs with ⟨hx, e⟩ |
    ⟨hnn, start, stop, _, _, _, _, hcase⟩
  · rw [e]; exact ⟨fun _ => hx, fun _ => ⟨_, rfl⟩⟩
  · constructor
    · rintro ⟨err, he⟩
      rcases hcase with ⟨_, e⟩ | ⟨_, e⟩ <;> rw [e] at he <;> simp [Except.map] at he
    · rintro ⟨x, hx, h⟩; exact absurd h (hnn x hx)

/-- **C108.** A figure given by the caller is never extended: the call raises
`UnboundLocalError`. -/
theorem C108_given_figure_raises (eig : Eig 4) (params : Dict (Dict ℝ)) (st : Bool) (speeds : List ℝ) :
    plotSpeedFigure eig params true st speeds = .error .unboundLocal := rfl

theorem realTraces_single (eig : Eig 4) (c : Canon) (g v : ℝ) :
    realTraces [eigRow (eigAt eig c g v)] =
      [[((eigAt eig c g v).1 2).re], [((eigAt eig c g v).1 3).re], [((eigAt eig c g v).1 1).re],
        [((eigAt eig c g v).1 0).re]] := by
  obtain ⟨hlen, hrow⟩ := sorted_rows (m := 4) (by norm_num) [eigAt eig c g v] (by simp)
  obtain ⟨σ, h1, h2⟩ := hrow 0 _ rfl
  have hσ := h1 rfl
  subst hσ
  have hs : sortEigenmodes [eigRow (eigAt eig c g v)] = [eigRow (eigAt eig c g v)] := by
    simp only [List.map_cons, List.map_nil] at hlen h2
    match hh : sortEigenmodes [eigRow (eigAt eig c g v)], hlen, h2 with
    | [r], _, h2 => simpa using h2
  unfold realTraces sortModes
  rw [hs]
  simp [eigRow, List.ofFn_succ]

/-- **C108.** Asked for one speed at which the bicycle is not self-stable, the figure does not
carry the annotation "No stability region": the call raises `UnboundLocalError`. -/
theorem C108_single_unstable_raises (eig : Eig 4) (heig : ∀ A, EigenpairsOf A (eig A))
    {params : Dict (Dict ℝ)} {c : Canon} {g : ℝ} (hp : HasModel params c g) (v : ℝ)
    (hv : ¬ SelfStable c v g) :
    plotSpeedFigure eig params false true [v] = .error .unboundLocal := by
  obtain ⟨rows, hrows, _, w1, w2, ca, cs, htr, hrun⟩ := plotSpeedFigure_run eig hp [v] (by simp)
  have hsort : npSort [v] = [v] := by simp [npSort]
  rw [hsort] at hrows hrun
  rw [hrows, List.map_cons, List.map_nil, realTraces_single] at htr
  rw [selfStable_iff c v g hp.det _ (heig _)] at hv
  push Not at hv
  obtain ⟨j, hj⟩ := hv
  have hmem : [((eigAt eig c g v).1 j).re] ∈ [w1, w2, ca, cs] := by
    rw [← htr]
    fin_cases j <;> simp
  have hempty : dampedSpeeds [v] [((eigAt eig c g v).1 j).re] = [] := by
    have : ¬ ((eigAt eig c g v).1 j).re < 0 := not_lt.2 hj
    simp [dampedSpeeds, this]
  rw [hrun]
  rcases stabilityRegion_cases [v] w1 w2 ca cs with ⟨_, e⟩ | ⟨hnn, _⟩
  · rw [e]; rfl
  · exact absurd hempty (hnn _ hmem)

/-- **C108.** In particular for every physical bicycle at rest under gravity with its mass
centre above the ground. -/
theorem C108_at_rest_raises (eig : Eig 4) (heig : ∀ A, EigenpairsOf A (eig A))
    {params : Dict (Dict ℝ)} {g : ℝ} (p : Bench) (hp : HasModel params p.canon g) (h : p.Physical)
    (hB : InPlanePD p.IBxx p.IBxz p.IBzz) (hH : InPlanePD p.IHxx p.IHxz p.IHzz)
    (hg : 0 < g) (hz : p.zT < 0) :
    plotSpeedFigure eig params false true [0] = .error .unboundLocal := by
  refine C108_single_unstable_raises eig heig hp 0 fun hs => ?_
  obtain ⟨l, hl, he⟩ := C76_unstable_at_rest p h hB hH g hg hz
  have := hs l ((C02_eigenvalues_are_roots _ _ _ _ _ _ _ hp.det).1 he)
  simp at this
  linarith

/-- A curve whose negative part is contiguous: between two samples with negative ordinates every
sample has a negative ordinate. -/
def Spec.Contiguous (vs ys : List ℝ) : Prop :=
  ∀ (i j k : ℕ) (vi vj vk yi yj yk : ℝ), vs[i]? = some vi → vs[j]? = some vj → vs[k]? = some vk →
    ys[i]? = some yi → ys[j]? = some yj → ys[k]? = some yk →
    vi ≤ vj → vj ≤ vk → yi < 0 → yk < 0 → yj < 0

/-- **C108.** If the negative part of each of the four curves of real parts is contiguous, then
at every sample in the shaded range the four curves are negative.  (Missing: without that
hypothesis this is false, see `C108_shades_unstable`.) -/
theorem C108_shaded_is_damped_partial (eig : Eig 4)
    {params : Dict (Dict ℝ)} {c : Canon} {g : ℝ} (hp : HasModel params c g) (speeds : List ℝ)
    (hne : speeds ≠ []) (fig : SpeedFigure) (a b : ℝ)
    (hfig : plotSpeedFigure eig params false true speeds = .ok fig)
    (hreg : fig.region = some (some (a, b)))
    (hcon : ∀ curve ∈ fig.curves.take 4, Contiguous fig.speeds curve.ys) :
    ∀ (i : ℕ) v, fig.speeds[i]? = some v → a ≤ v → v ≤ b →
      ∀ curve ∈ fig.curves.take 4, ∃ y, curve.ys[i]? = some y ∧ y < 0 := by
  obtain ⟨rows, hrows, _, w1, w2, ca, cs, htr, hrun⟩ := plotSpeedFigure_run eig hp speeds hne
  have hpick := realTraces_pick eig c g (npSort speeds) (npSort_ne_nil hne)
  rw [← hrows, htr] at hpick
  rw [hrun] at hfig
  rcases stabilityRegion_cases (npSort speeds) w1 w2 ca cs with ⟨_, e⟩ |
    ⟨hnn, start, stop, hs1, _, ht1, _, ⟨_, e⟩ | ⟨_, e⟩⟩
  · rw [e] at hfig; simp [Except.map] at hfig
  · rw [e] at hfig
    simp only [Except.map, Except.ok.injEq] at hfig
    subst hfig; simp at hreg
  · rw [e] at hfig
    simp only [Except.map, Except.ok.injEq] at hfig
    subst hfig
    simp only [Option.some.injEq, Prod.mk.injEq] at hreg
    obtain ⟨rfl, rfl⟩ := hreg
    simp only at hcon ⊢
    intro i v hv hav hvb cu hcu
    have hx : cu.ys ∈ [w1, w2, ca, cs] := by
      rw [← htr, ← realTraces_eq]; exact List.mem_map.2 ⟨cu, hcu, rfl⟩
    obtain ⟨j, hj⟩ := (hpick _ hx).2 i v hv
    refine ⟨_, hj, ?_⟩
    obtain ⟨i0, r0, hi0, hr0, hn0⟩ := mem_dampedSpeeds.1 (listMin_mem (hnn _ hx))
    obtain ⟨i1, r1, hi1, hr1, hn1⟩ := mem_dampedSpeeds.1 (listMax_mem _ (hnn _ hx))
    exact hcon cu hcu i0 i i1 _ v _ r0 _ r1 hi0 hv hi1 hr0 hj hr1 ((hs1 _ hx).trans hav)
      (hvb.trans (ht1 _ hx)) hn0 hn1

/-- The characteristic polynomial of the equations of motion. -/
theorem pencil_det (c : Canon) (v g : ℝ) (l : ℂ) :
    (pencil c v g l).det =
      ((c.M 0 0 * c.M 1 1 - c.M 0 1 * c.M 1 0 : ℝ) : ℂ) * l ^ 4 +
      ((v * (c.M 0 0 * c.C1 1 1 + c.C1 0 0 * c.M 1 1 - c.M 0 1 * c.C1 1 0 - c.C1 0 1 * c.M 1 0) : ℝ) : ℂ) * l ^ 3 +
      ((c.M 0 0 * (g * c.K0 1 1 + v ^ 2 * c.K2 1 1) + (g * c.K0 0 0 + v ^ 2 * c.K2 0 0) * c.M 1 1
        - c.M 0 1 * (g * c.K0 1 0 + v ^ 2 * c.K2 1 0) - (g * c.K0 0 1 + v ^ 2 * c.K2 0 1) * c.M 1 0
        + v ^ 2 * (c.C1 0 0 * c.C1 1 1 - c.C1 0 1 * c.C1 1 0) : ℝ) : ℂ) * l ^ 2 +
      ((v * (c.C1 0 0 * (g * c.K0 1 1 + v ^ 2 * c.K2 1 1) + (g * c.K0 0 0 + v ^ 2 * c.K2 0 0) * c.C1 1 1
        - c.C1 0 1 * (g * c.K0 1 0 + v ^ 2 * c.K2 1 0) - (g * c.K0 0 1 + v ^ 2 * c.K2 0 1) * c.C1 1 0) : ℝ) : ℂ) * l +
      (((g * c.K0 0 0 + v ^ 2 * c.K2 0 0) * (g * c.K0 1 1 + v ^ 2 * c.K2 1 1)
        - (g * c.K0 0 1 + v ^ 2 * c.K2 0 1) * (g * c.K0 1 0 + v ^ 2 * c.K2 1 0) : ℝ) : ℂ) := by
  simp [pencil, toC, det_fin_two]
  ring

/-- A bicycle with two separate ranges of self-stable speeds. -/
noncomputable def twoRangesDict : Dict ℝ :=
  [("w", 1), ("c", 1 / 2), ("lam", 0), ("rR", 1 / 5), ("mR", 4), ("IRxx", 1), ("IRyy", 2),
   ("xB", 1), ("zB", -1), ("mB", 2), ("IBxx", 1), ("IBxz", 1 / 2), ("IBzz", 1), ("IByy", 1),
   ("xH", 3 / 2), ("zH", -1), ("mH", 19), ("IHxx", 4), ("IHxz", 0), ("IHzz", 5), ("IHyy", 4),
   ("rF", 1 / 2), ("mF", 2), ("IFxx", 1 / 2), ("IFyy", 1 / 2), ("g", 981 / 100)]

theorem twoRanges_bench : Bench.ofDict twoRangesDict =
    { w := 1, c := 1 / 2, lam := 0, rR := 1 / 5, mR := 4, IRxx := 1, IRyy := 2, xB := 1, zB := -1,
      mB := 2, IBxx := 1, IBxz := 1 / 2, IBzz := 1, xH := 3 / 2, zH := -1, mH := 19, IHxx := 4,
      IHxz := 0, IHzz := 5, rF := 1 / 2, mF := 2, IFxx := 1 / 2, IFyy := 1 / 2 } := by
  simp [Bench.ofDict, twoRangesDict, Dict.getD, Dict.find?]

theorem twoRanges_canon : (Bench.ofDict twoRangesDict).canon =
    ⟨!![704 / 25, 31 / 2; 31 / 2, 385 / 16], !![0, 499 / 10; -13 / 2, 157 / 4],
     !![-114 / 5, -61 / 4; -61 / 4, 0], !![0, 169 / 5; 0, 61 / 4]⟩ := by
  rw [twoRanges_bench]
  simp only [Bench.canon, Bench.M, Bench.C1, Bench.K0, Bench.K2, Bench.mT, Bench.xT, Bench.zT,
    Bench.ITxx, Bench.ITxz, Bench.IRzz, Bench.IFzz, Bench.ITzz, Bench.mA, Bench.xA, Bench.zA,
    Bench.IAxx, Bench.IAxz, Bench.IAzz, Bench.uA, Bench.IAll, Bench.IAlx, Bench.IAlz, Bench.mu,
    Bench.SR, Bench.SF, Bench.ST, Bench.SA, Real.cos_zero, Real.sin_zero]
  norm_num

theorem twoRanges_keys : ∀ key ∈ canonKeys, Dict.has twoRangesDict key = true := by
  intro key hk
  simp only [canonKeys, canonKeysBefore, canonKeysAfter, List.cons_append, List.nil_append,
    List.mem_cons, List.not_mem_nil, or_false] at hk
  rcases hk with h | h | h | h | h | h | h | h | h | h | h | h | h | h | h | h | h | h | h | h | h | h | h <;>
    subst h <;> simp [twoRangesDict, Dict.has, Dict.find?]

theorem twoRanges_hasModel :
    HasModel [("Benchmark", twoRangesDict)] (Bench.ofDict twoRangesDict).canon (981 / 100) :=
  ⟨⟨twoRangesDict, by simp [Dict.find?], twoRanges_keys, by simp [twoRangesDict, Dict.find?], rfl⟩,
    by rw [twoRanges_canon]; norm_num [det_fin_two]⟩

theorem twoRanges_physical : (Bench.ofDict twoRangesDict).Physical ∧
    InPlanePD (Bench.ofDict twoRangesDict).IBxx (Bench.ofDict twoRangesDict).IBxz
      (Bench.ofDict twoRangesDict).IBzz ∧
    InPlanePD (Bench.ofDict twoRangesDict).IHxx (Bench.ofDict twoRangesDict).IHxz
      (Bench.ofDict twoRangesDict).IHzz ∧ (Bench.ofDict twoRangesDict).zT < 0 := by
  rw [twoRanges_bench]
  refine ⟨⟨?_, ?_, ?_, ?_, ?_, ?_, ?_, ?_, ?_, ?_, ?_⟩, ?_, ?_, ?_⟩ <;>
    norm_num [Bench.mA, Bench.mT, Bench.zT, InPlanePD, InPlanePSD]
  · intro a b; nlinarith [sq_nonneg (a + b), sq_nonneg a, sq_nonneg b]
  · intro a b; positivity
  · intro a b h
    rcases h with h | h
    · nlinarith [sq_nonneg (a + 2 * b), sq_nonneg (a + b), pow_pos (abs_pos.2 h) 2, sq_abs a, sq_nonneg b]
    · nlinarith [sq_nonneg (2 * a + b), pow_pos (abs_pos.2 h) 2, sq_abs b]
  · intro a b h
    rcases h with h | h
    · nlinarith [pow_pos (abs_pos.2 h) 2, sq_abs a, sq_nonneg b]
    · nlinarith [pow_pos (abs_pos.2 h) 2, sq_abs b, sq_nonneg a]

theorem twoRanges_stable (v : ℝ) (hv : v = 4 ∨ v = 16) :
    SelfStable (Bench.ofDict twoRangesDict).canon v (981 / 100) := by
  intro l hl
  rw [pencil_det, twoRanges_canon] at hl
  rcases hv with rfl | rfl
  · refine routh_sufficient _ _ _ _ _ ?_ ?_ ?_ ?_ ?_ l hl <;> norm_num
  · refine routh_sufficient _ _ _ _ _ ?_ ?_ ?_ ?_ ?_ l hl <;> norm_num

theorem twoRanges_unstable : ¬ SelfStable (Bench.ofDict twoRangesDict).canon 8 (981 / 100) := by
  intro hs
  obtain ⟨eig, heig⟩ := exists_correct_eig 4
  have hdet := twoRanges_hasModel.det
  have hneg := (selfStable_iff _ _ _ hdet _ (heig _)).1 hs
  have hp := (modesAt_of_eigenpairs _ 8 (981 / 100) hdet _ (heig _)).2
  have hq := fun l => (pencil_det (Bench.ofDict twoRangesDict).canon 8 (981 / 100) l).symm.trans (hp l)
  rw [Matrix.det_fin_two] at hq
  have h4 : 0 < (Bench.ofDict twoRangesDict).canon.M 0 0 * (Bench.ofDict twoRangesDict).canon.M 1 1 -
      (Bench.ofDict twoRangesDict).canon.M 0 1 * (Bench.ofDict twoRangesDict).canon.M 1 0 := by
    rw [twoRanges_canon]; norm_num
  have h := (routh_necessary _ _ _ _ _ h4 _ hq hneg).2.2.2.2
  rw [twoRanges_canon] at h
  norm_num at h

/-- **C108.** The shaded range of a physical bicycle can contain a sampled speed at which the
bicycle is not self-stable, whatever correct `numpy.linalg.eig` is used. -/
theorem C108_shades_unstable : ∃ (params : Dict (Dict ℝ)) (p : Bench),
    HasModel params p.canon (981 / 100) ∧ p.Physical ∧ InPlanePD p.IBxx p.IBxz p.IBzz ∧
    InPlanePD p.IHxx p.IHxz p.IHzz ∧ p.zT < 0 ∧
    ∀ eig : Eig 4, (∀ A, EigenpairsOf A (eig A)) →
      ∃ fig, plotSpeedFigure eig params false true [4, 8, 16] = .ok fig ∧
        fig.region = some (some (4, 16)) ∧ ¬ SelfStable p.canon 8 (981 / 100) := by
  obtain ⟨h1, h2, h3, h4⟩ := twoRanges_physical
  refine ⟨_, _, twoRanges_hasModel, h1, h2, h3, h4, fun eig heig => ?_⟩
  obtain ⟨k1, k2, k3⟩ := C108_stable_speeds_shaded eig heig twoRanges_hasModel [4, 8, 16] (by simp)
  have s4 := twoRanges_stable 4 (Or.inl rfl)
  have s16 := twoRanges_stable 16 (Or.inr rfl)
  have m4 : (4 : ℝ) ∈ [(4 : ℝ), 8, 16] := by simp
  have m16 : (16 : ℝ) ∈ [(4 : ℝ), 8, 16] := by simp
  cases hf : plotSpeedFigure eig [("Benchmark", twoRangesDict)] false true [4, 8, 16] with
  | error e => exact absurd s4 ((k3 e hf).2 4 m4)
  | ok fig =>
    refine ⟨fig, rfl, ?_, twoRanges_unstable⟩
    obtain ⟨rows, _, _, _, _, _, _, _, hrun⟩ := plotSpeedFigure_run eig twoRanges_hasModel [4, 8, 16] (by simp)
    have hsome : ∃ r, fig.region = some r := by
      rw [hf] at hrun
      generalize stabilityRegion _ _ _ _ _ = st at hrun
      cases st with
      | error e => simp [Except.map] at hrun
      | ok r =>
        simp only [Except.map, Except.ok.injEq] at hrun
        exact ⟨r, by rw [hrun]⟩
    obtain ⟨r, hr⟩ := hsome
    cases r with
    | none =>
      have := k2 fig hf hr 4 m4 16 m16 s4 s16
      norm_num at this
    | some ab =>
      obtain ⟨a, b⟩ := ab
      obtain ⟨_, ha, hb, hall⟩ := k1 fig a b hf hr
      have ha4 := (hall 4 m4 s4).1
      have hb16 := (hall 16 m16 s16).2
      have ea : a = 4 := by
        simp only [List.mem_cons, List.not_mem_nil, or_false] at ha
        rcases ha with h | h | h <;> first | exact h | (exfalso; rw [h] at ha4; norm_num at ha4)
      have eb : b = 16 := by
        simp only [List.mem_cons, List.not_mem_nil, or_false] at hb
        rcases hb with h | h | h <;> first | exact h | (exfalso; rw [h] at hb16; norm_num at hb16)
      rw [hr, ea, eb]

/-- The hypotheses of C107 and C108 are met by that bicycle and some `eig`; at rest the last
theorem on failures applies to it. -/
theorem example_speed_figure : ∃ (eig : Eig 4) (params : Dict (Dict ℝ)) (p : Bench),
    (∀ A, EigenpairsOf A (eig A)) ∧ HasModel params p.canon (981 / 100) ∧
    SelfStable p.canon 4 (981 / 100) ∧
    plotSpeedFigure eig params false true [0] = .error .unboundLocal := by
  obtain ⟨eig, heig⟩ := exists_correct_eig 4
  obtain ⟨h1, h2, h3, h4⟩ := twoRanges_physical
  exact ⟨eig, _, _, heig, twoRanges_hasModel, twoRanges_stable 4 (Or.inl rfl),
    C108_at_rest_raises eig heig _ twoRanges_hasModel h1 h2 h3 (by norm_num) h4⟩

/-! ## C109: the matplotlib figure of the eigenvalues over speed -/

theorem plotEigenvaluesVsSpeed_run (eig : Eig 4) {params : Dict (Dict ℝ)} {c : Canon} {g : ℝ}
    (hp : HasModel params c g) (name : String) (generic largest : Bool) (speeds : List ℝ)
    (hne : speeds ≠ []) :
    plotEigenvaluesVsSpeed eig params name generic largest speeds = .ok (npSort speeds,
      if largest then [⟨name, largestCurve ((npSort speeds).map fun v => eigRow (eigAt eig c g v))⟩]
      else modeCurves (speedLegend generic name)
        ((npSort speeds).map fun v => eigRow (eigAt eig c g v))) := by
  unfold plotEigenvaluesVsSpeed
  rw [speedRows_run eig hp]
  simp only [Except.bind]
  rw [if_neg (by simpa using npSort_ne_nil hne)]

/-- **C109.** The abscissae are the given speeds in increasing order. -/
theorem C109_abscissae (eig : Eig 4) {params : Dict (Dict ℝ)} {c : Canon} {g : ℝ}
    (hp : HasModel params c g) (name : String) (generic largest : Bool) (speeds : List ℝ)
    (hne : speeds ≠ []) :
    ∃ xs curves, plotEigenvaluesVsSpeed eig params name generic largest speeds = .ok (xs, curves) ∧
      xs.Perm speeds ∧ xs.Pairwise (· ≤ ·) ∧ ∀ curve ∈ curves, curve.ys.length = xs.length := by
  refine ⟨_, _, plotEigenvaluesVsSpeed_run eig hp name generic largest speeds hne,
    List.perm_insertionSort _ _, List.pairwise_insertionSort _ _, ?_⟩
  have hlen : (sortEigenmodes ((npSort speeds).map fun v => eigRow (eigAt eig c g v))).length =
      (npSort speeds).length := by
    have := (sorted_rows (m := 4) (by norm_num) ((npSort speeds).map fun v => eigAt eig c g v)
      (by simpa using npSort_ne_nil hne)).1
    rw [List.map_map, List.length_map] at this
    exact this
  cases largest
  · simp only [Bool.false_eq_true, if_false, modeCurves, sortModes, List.map_map, List.mem_cons,
      List.not_mem_nil, or_false]
    rintro curve (rfl | rfl | rfl | rfl | rfl | rfl | rfl | rfl) <;>
      simp only [List.length_map] <;> exact hlen
  · simp [largestCurve]

/-- **C109.** With `largest=True` the only curve, labelled with the bicycle's name, passes
through the largest real part of an exponent of the motion at that speed: it is negative exactly
at the self-stable speeds. -/
theorem C109_largest (eig : Eig 4) (heig : ∀ A, EigenpairsOf A (eig A))
    {params : Dict (Dict ℝ)} {c : Canon} {g : ℝ} (hp : HasModel params c g) (name : String)
    (generic : Bool) (speeds : List ℝ) (hne : speeds ≠ []) :
    ∃ xs ys, plotEigenvaluesVsSpeed eig params name generic true speeds = .ok (xs, [⟨name, ys⟩]) ∧
      List.Forall₂ (fun v y => (∃ l : ℂ, (pencil c v g l).det = 0 ∧ y = l.re) ∧
        (∀ l : ℂ, (pencil c v g l).det = 0 → l.re ≤ y) ∧ (y < 0 ↔ SelfStable c v g)) xs ys := by
  refine ⟨_, _, plotEigenvaluesVsSpeed_run eig hp name generic true speeds hne, ?_⟩
  unfold largestCurve
  rw [List.map_map, List.forall₂_map_right_iff, List.forall₂_same]
  intro v _
  simp only [Function.comp_apply, eigRow, List.map_ofFn]
  have hroot := (modesAt_of_eigenpairs c v g hp.det _ (heig (abA c.M c.C1 c.K0 c.K2 v g))).2
  have hM' : (c.M.det : ℂ) ≠ 0 := by exact_mod_cast hp.det
  have hev : ∀ j, (pencil c v g ((eigAt eig c g v).1 j)).det = 0 := fun j => by
    rw [hroot]
    exact mul_eq_zero_of_right _ (Finset.prod_eq_zero (Finset.mem_univ j) (sub_self _))
  have hall : ∀ l : ℂ, (pencil c v g l).det = 0 → ∃ j, l = (eigAt eig c g v).1 j := by
    intro l hl
    rw [hroot] at hl
    obtain ⟨j, _, hj⟩ := Finset.prod_eq_zero_iff.1 ((mul_eq_zero.1 hl).resolve_left hM')
    exact ⟨j, sub_eq_zero.1 hj⟩
  have hle : ∀ j, ((eigAt eig c g v).1 j).re ≤ listMax (List.ofFn (Complex.re ∘ (eigAt eig c g v).1)) :=
    fun j => mem_le_listMax ((List.mem_ofFn' _ _).2 ⟨j, rfl⟩)
  obtain ⟨j0, hj0⟩ := (List.mem_ofFn' _ _).1
    (listMax_mem (List.ofFn (Complex.re ∘ (eigAt eig c g v).1)) (by simp))
  refine ⟨⟨_, hev j0, hj0.symm⟩, fun l hl => ?_, ?_⟩
  · obtain ⟨j, rfl⟩ := hall l hl
    exact hle j
  · constructor
    · intro hneg l hl
      obtain ⟨j, rfl⟩ := hall l hl
      exact (hle j).trans_lt hneg
    · intro hs
      rw [← hj0]
      exact hs _ (hev j0)

/-- **C109.** Otherwise there are four modes, each a sequence of exponents of the motion, one for
each speed; the curves are the absolute values of their imaginary parts and then their real
parts, labelled weave, weave, capsize, caster; at the lowest speed the modes are all exponents
(with multiplicity). -/
theorem C109_modes (eig : Eig 4) (heig : ∀ A, EigenpairsOf A (eig A))
    {params : Dict (Dict ℝ)} {c : Canon} {g : ℝ} (hp : HasModel params c g) (name : String)
    (speeds : List ℝ) (hne : speeds ≠ []) :
    ∃ (xs : List ℝ) (w1 w2 ca cs : List ℂ),
      plotEigenvaluesVsSpeed eig params name false false speeds = .ok (xs,
        [⟨"Imaginary Weave", w1.map fun l => |l.im|⟩, ⟨"Imaginary Weave", w2.map fun l => |l.im|⟩,
         ⟨"Imaginary Capsize", ca.map fun l => |l.im|⟩, ⟨"Imaginary Caster", cs.map fun l => |l.im|⟩,
         ⟨"Real Weave", w1.map Complex.re⟩, ⟨"Real Weave", w2.map Complex.re⟩,
         ⟨"Real Capsize", ca.map Complex.re⟩, ⟨"Real Caster", cs.map Complex.re⟩]) ∧
      (∀ mode ∈ [w1, w2, ca, cs], List.Forall₂ (fun v l => (pencil c v g l).det = 0) xs mode) ∧
      ∃ v0 l0 l1 l2 l3, xs.head? = some v0 ∧ w1.head? = some l0 ∧ w2.head? = some l1 ∧
        ca.head? = some l2 ∧ cs.head? = some l3 ∧ ∀ l : ℂ,
          (pencil c v0 g l).det = c.M.det * ((l - l0) * (l - l1) * (l - l2) * (l - l3)) := by
  have hroots : ∀ v, ∀ l : ℂ, (pencil c v g l).det = c.M.det * ∏ j, (l - (eigAt eig c g v).1 j) :=
    fun v => (modesAt_of_eigenpairs c v g hp.det _ (heig _)).2
  obtain ⟨hlen, hrow⟩ := sorted_rows (m := 4) (by norm_num) ((npSort speeds).map fun v => eigAt eig c g v)
    (by simpa using npSort_ne_nil hne)
  rw [List.map_map] at hlen hrow
  simp only [List.length_map] at hlen
  set rows := (npSort speeds).map (eigRow ∘ fun v => eigAt eig c g v) with hrows
  set S := sortEigenmodes rows with hS
  have hrun := plotEigenvaluesVsSpeed_run eig hp name false false speeds hne
  refine ⟨npSort speeds, S.map fun r => r.evals.getD 2 0, S.map fun r => r.evals.getD 3 0,
    S.map fun r => r.evals.getD 1 0, S.map fun r => r.evals.getD 0 0, ?_, ?_, ?_⟩
  · rw [hrun]
    simp only [Bool.false_eq_true, if_false, modeCurves, sortModes, speedLegend, List.map_map]
    have hr : ((npSort speeds).map fun v => eigRow (eigAt eig c g v)) = rows := rfl
    rw [hr, ← hS]
    simp [Function.comp_def, List.getD_eq_getElem?_getD]
  · have gen : ∀ k : Fin 4, List.Forall₂ (fun v l => (pencil c v g l).det = 0) (npSort speeds)
        (S.map fun r => r.evals.getD k.val 0) := by
      intro k
      rw [List.forall₂_iff_get]
      refine ⟨by rw [List.length_map]; exact hlen.symm, ?_⟩
      intro i h1 h2
      obtain ⟨σ, _, h⟩ := hrow i (eigAt eig c g (npSort speeds)[i]) (by simp [h1])
      have h3 : i < S.length := by simpa using h2
      rw [List.getElem?_eq_getElem h3, Option.some.injEq] at h
      simp only [List.get_eq_getElem, List.getElem_map]
      rw [h, hroots]
      refine mul_eq_zero_of_right _ (Finset.prod_eq_zero (Finset.mem_univ (σ k)) ?_)
      fin_cases k <;> simp [eigRow, List.ofFn_succ]
    intro mode hm
    simp only [List.mem_cons, List.not_mem_nil, or_false] at hm
    rcases hm with rfl | rfl | rfl | rfl
    · exact gen 2
    · exact gen 3
    · exact gen 1
    · exact gen 0
  · obtain ⟨v0, vs, hv⟩ := List.exists_cons_of_ne_nil (npSort_ne_nil hne)
    obtain ⟨σ, hσ, h⟩ := hrow 0 (eigAt eig c g v0) (by simp [hv])
    have := hσ rfl
    subst this
    have hhead : S.head? = some (eigRow (eigAt eig c g v0)) := by
      rw [List.head?_eq_getElem?]; exact h
    refine ⟨v0, (eigAt eig c g v0).1 2, (eigAt eig c g v0).1 3, (eigAt eig c g v0).1 1,
      (eigAt eig c g v0).1 0, by rw [hv]; rfl, ?_, ?_, ?_, ?_, fun l => ?_⟩
    iterate 4 (rw [List.head?_map, hhead]; simp [eigRow, List.ofFn_succ])
    rw [hroots, Fin.prod_univ_four]
    ring

/-! ## C110: the system of the Bode plot -/

/-- `y` is the response of the system at the angular frequency `w`: with the input
`exp(i w t)` there is a harmonic state `x exp(i w t)`, and the output is `y exp(i w t)`. -/
def Spec.Response (s : Siso) (w : ℝ) (y : ℂ) : Prop :=
  ∃ x : Fin 4 → ℂ, (Complex.I * w) • x = (s.A.map Complex.ofReal) *ᵥ x + (fun i => (s.B i : ℂ)) ∧
    y = ∑ i, (s.C i : ℂ) * x i + s.D

/-- The answer of the bicycle to a unit torque on coordinate `u` (roll, steer) of frequency `w`:
`q exp(i w t)` satisfies the equations of motion `M q'' + v C1 q' + (g K0 + v² K2) q = T`. -/
def Spec.Answer (c : Canon) (v g w : ℝ) (u : Fin 2) (q : Fin 2 → ℂ) : Prop :=
  pencil c v g (Complex.I * w) *ᵥ q = Pi.single u 1

/-- The observed quantities: roll angle, steer angle, roll rate, steer rate. -/
noncomputable def Spec.observed (w : ℝ) (q : Fin 2 → ℂ) : Fin 4 → ℂ :=
  ![q 0, q 1, Complex.I * w * q 0, Complex.I * w * q 1]

theorem bodeSystem_run {params : Dict (Dict ℝ)} {c : Canon} {g : ℝ} (hp : HasModel params c g)
    (v : ℝ) (u : Fin 2) (y : Fin 4) :
    (bodeSystem params v u y).2 = .ok ⟨abA c.M c.C1 c.K0 c.K2 v g, fun i => abB c.M i u,
      (1 : Matrix (Fin 4) (Fin 4) ℝ) y, 0⟩ := by
  obtain ⟨par, h1, h2, h3, h4⟩ := hp.ex
  have e1 : Dict.get params "Benchmark" = .ok par := by simp [Dict.get, h1]
  unfold bodeSystem bikeStateSpace bikeCanonical
  rw [e1]
  simp only [canonical_of_keys par h2, selectNominal, id]
  simp [Dict.get, Dict.find?_set, h3, selectNominal, Except.map, h4]

/-- **C110.** The system handed to `control.bode` is the transfer from the torque `u` to the
quantity `y` of the equations of motion at the given speed: its response at a frequency is the
observed quantity of the bicycle's answer to a unit torque. -/
theorem C110_bode {params : Dict (Dict ℝ)} {c : Canon} {g : ℝ} (hp : HasModel params c g)
    (v : ℝ) (u : Fin 2) (y : Fin 4) :
    ∃ s, (bodeSystem params v u y).2 = .ok s ∧ ∀ (w : ℝ) (z : ℂ),
      Response s w z ↔ ∃ q, Answer c v g w u q ∧ z = observed w q y := by
  refine ⟨_, bodeSystem_run hp v u y, fun w z => ?_⟩
  have hM : (toC c.M).det ≠ 0 := by rw [det_toC]; exact_mod_cast hp.det
  have hA : (abA c.M c.C1 c.K0 c.K2 v g).map Complex.ofReal =
      abA (toC c.M) (toC c.C1) (toC c.K0) (toC c.K2) v g := abA_toC _ _ _ _ _ _
  have hB : ∀ i, ((abB c.M i u : ℝ) : ℂ) = abB (toC c.M) i u := by
    intro i
    fin_cases i <;> fin_cases u <;> simp [abB, invM, toC]
  set l : ℂ := Complex.I * w with hl
  have hC : ∀ x : Fin 4 → ℂ, ∑ i, (((1 : Matrix (Fin 4) (Fin 4) ℝ) y i : ℝ) : ℂ) * x i = x y := by
    intro x
    fin_cases y <;> simp [Fin.sum_univ_four, Matrix.one_apply]
  -- the equations of motion, multiplied by the inverse of the mass matrix
  have hinv : invM (toC c.M) * toC c.M = 1 := mul_eq_one_comm.1 (invM_mul ℂ _ hM)
  have heom : ∀ q : Fin 2 → ℂ, pencil c v g l *ᵥ q = Pi.single u 1 ↔
      l ^ 2 • q = a21 (toC c.M) (toC c.K0) (toC c.K2) v g *ᵥ q +
        a22 (toC c.M) (toC c.C1) v *ᵥ (l • q) + invM (toC c.M) *ᵥ Pi.single u 1 := by
    intro q
    have hcalc : pencil c v g l *ᵥ q - Pi.single u 1 = toC c.M *ᵥ (l ^ 2 • q -
        (a21 (toC c.M) (toC c.K0) (toC c.K2) v g *ᵥ q +
        a22 (toC c.M) (toC c.C1) v *ᵥ (l • q) + invM (toC c.M) *ᵥ Pi.single u 1)) := by
      simp only [pencil, a21, a22, Matrix.neg_mulVec, Matrix.mulVec_add, Matrix.mulVec_sub,
        Matrix.mulVec_neg, Matrix.mulVec_mulVec, ← Matrix.mul_assoc, invM_mul ℂ _ hM,
        Matrix.one_mul, Matrix.mulVec_smul, Matrix.add_mulVec, Matrix.smul_mulVec, Matrix.one_mulVec,
        smul_add, smul_neg, smul_smul]
      abel
    constructor
    · intro h
      have h0 : toC c.M *ᵥ (l ^ 2 • q - (a21 (toC c.M) (toC c.K0) (toC c.K2) v g *ᵥ q +
        a22 (toC c.M) (toC c.C1) v *ᵥ (l • q) + invM (toC c.M) *ᵥ Pi.single u 1)) = 0 := by
        rw [← hcalc, h, sub_self]
      have := congrArg (fun z => invM (toC c.M) *ᵥ z) h0
      simp only [Matrix.mulVec_mulVec, hinv, Matrix.one_mulVec, Matrix.mulVec_zero] at this
      exact sub_eq_zero.1 this
    · intro h
      rw [h, sub_self, Matrix.mulVec_zero] at hcalc
      exact sub_eq_zero.1 hcalc
  have hcol : ∀ i : Fin 2, (invM (toC c.M) *ᵥ Pi.single u 1) i = invM (toC c.M) i u := by
    intro i; simp [Matrix.mulVec_single]
  have b0 : abB (toC c.M) 0 u = 0 := by fin_cases u <;> simp [abB]
  have b1 : abB (toC c.M) 1 u = 0 := by fin_cases u <;> simp [abB]
  have b2 : abB (toC c.M) 2 u = invM (toC c.M) 0 u := by fin_cases u <;> simp [abB]
  have b3 : abB (toC c.M) 3 u = invM (toC c.M) 1 u := by fin_cases u <;> simp [abB]
  unfold Response Answer
  rw [← hl]
  simp only [hA, hB, hC]
  constructor
  · rintro ⟨x, hx, rfl⟩
    have r0 := congrFun hx 0
    have r1 := congrFun hx 1
    have r2 := congrFun hx 2
    have r3 := congrFun hx 3
    simp [abA, b0, b1, b2, b3, Matrix.mulVec, dotProduct, Fin.sum_univ_four] at r0 r1 r2 r3
    refine ⟨![x 0, x 1], (heom _).2 ?_, ?_⟩
    · have hr : (l • ![x 0, x 1] : Fin 2 → ℂ) = ![x 2, x 3] := by
        funext i; fin_cases i <;> simp [r0, r1]
      rw [hr]
      funext i
      rw [Pi.add_apply, hcol]
      fin_cases i
      · simp [Matrix.mulVec, dotProduct, Fin.sum_univ_two]
        linear_combination r2 + l * r0
      · simp [Matrix.mulVec, dotProduct, Fin.sum_univ_two]
        linear_combination r3 + l * r1
    · fin_cases y <;> simp [observed, r0, r1, ← hl]
  · rintro ⟨q, hq, rfl⟩
    have h := (heom q).1 hq
    refine ⟨observed w q, ?_, by simp⟩
    have h0 := congrFun h 0
    have h1 := congrFun h 1
    rw [Pi.add_apply, hcol] at h0 h1
    simp [Matrix.mulVec, dotProduct, Fin.sum_univ_two] at h0 h1
    funext i
    fin_cases i
    · simp [observed, abA, b0, b1, b2, b3, Matrix.mulVec, dotProduct, Fin.sum_univ_four, ← hl]
    · simp [observed, abA, b0, b1, b2, b3, Matrix.mulVec, dotProduct, Fin.sum_univ_four, ← hl]
    · simp [observed, abA, b0, b1, b2, b3, Matrix.mulVec, dotProduct, Fin.sum_univ_four, ← hl]
      linear_combination h0
    · simp [observed, abA, b0, b1, b2, b3, Matrix.mulVec, dotProduct, Fin.sum_univ_four, ← hl]
      linear_combination h1

/-- **C110.** Where the frequency is not that of an undamped mode the response exists and is
unique. -/
theorem C110_response_unique {params : Dict (Dict ℝ)} {c : Canon} {g : ℝ} (hp : HasModel params c g)
    (v w : ℝ) (u : Fin 2) (y : Fin 4) (hw : (pencil c v g (Complex.I * w)).det ≠ 0) :
    ∃ s, (bodeSystem params v u y).2 = .ok s ∧ ∃! z, Response s w z := by
  obtain ⟨s, hs, h⟩ := C110_bode hp v u y
  refine ⟨s, hs, ?_⟩
  have hunit : IsUnit (pencil c v g (Complex.I * w)).det := isUnit_iff_ne_zero.2 hw
  refine ⟨observed w ((pencil c v g (Complex.I * w))⁻¹ *ᵥ Pi.single u 1) y, (h _ _).2 ⟨_, ?_, rfl⟩, ?_⟩
  · unfold Answer
    rw [Matrix.mulVec_mulVec, Matrix.mul_nonsing_inv _ hunit, Matrix.one_mulVec]
  · intro z hz
    obtain ⟨q, hq, rfl⟩ := (h _ _).1 hz
    have : q = (pencil c v g (Complex.I * w))⁻¹ *ᵥ Pi.single u 1 := by
      unfold Answer at hq
      rw [← hq, Matrix.mulVec_mulVec, Matrix.nonsing_inv_mul _ hunit, Matrix.one_mulVec]
    rw [this]

/-- C110 applies to the bicycle above at 4 m/s, for every frequency: it has no undamped mode. -/
theorem example_bode (w : ℝ) : HasModel [("Benchmark", twoRangesDict)]
    (Bench.ofDict twoRangesDict).canon (981 / 100) ∧
    (pencil (Bench.ofDict twoRangesDict).canon 4 (981 / 100) (Complex.I * w)).det ≠ 0 := by
  refine ⟨twoRanges_hasModel, fun h => ?_⟩
  have := twoRanges_stable 4 (Or.inl rfl) _ h
  simp at this

end BP
