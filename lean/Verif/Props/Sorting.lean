import Mathlib.Tactic.NormNum
import Mathlib.Tactic.Linarith
import Mathlib.Analysis.Complex.Norm
import Mathlib.Data.List.Perm.Basic
import Mathlib.Data.List.FinRange
import Verif.Model.Bicycle

/-!
# Properties of sort_eigenmodes / sort_modes: C07, C08
-/

set_option linter.unusedSimpArgs false

namespace BP

open Real

/-- The distance used is the distance in the complex plane. -/
theorem eigDist_eq_dist (e next : ℂ) : eigDist e next = dist e next := by
  rw [dist_comm, Complex.dist_eq, Complex.norm_eq_sqrt_sq_add_sq]
  unfold eigDist
  rw [show (0.5 : ℝ) = 1 / 2 by norm_num, ← Real.sqrt_eq_rpow, abs_of_nonneg (Real.sqrt_nonneg _)]
  simp

theorem argmin_lt : ∀ (l : List ℝ), l ≠ [] → argmin l < l.length
  | [], h => absurd rfl h
  | [_], _ => by simp [argmin]
  | x :: y :: l, _ => by
    have := argmin_lt (y :: l) (by simp)
    simp only [argmin]
    split
    · simp
    · simp only [List.length_cons] at *; omega

theorem argmin_le : ∀ (l : List ℝ) (i : ℕ), i < l.length → l.getD (argmin l) 0 ≤ l.getD i 0
  | [], i, h => by simp at h
  | [a], i, h => by
    have : i = 0 := by simpa using h
    subst this; simp [argmin]
  | x :: y :: l, i, h => by
    have ih := argmin_le (y :: l)
    simp only [argmin]
    split
    · rename_i hx
      cases i with
      | zero => simp
      | succ i =>
        have := ih i (by simpa using h)
        simp only [List.getD_cons_zero, List.getD_cons_succ] at *
        exact hx.trans this
    · rename_i hx
      push Not at hx
      cases i with
      | zero => simp only [List.getD_cons_succ, List.getD_cons_zero]; exact hx.le
      | succ i =>
        have := ih i (by simpa using h)
        simpa only [List.getD_cons_succ] using this

theorem le_listMax : ∀ (l : List ℝ) (i : ℕ), i < l.length → l.getD i 0 ≤ listMax l
  | [], i, h => by simp at h
  | [a], i, h => by
    have : i = 0 := by simpa using h
    subst this; simp [listMax]
  | x :: y :: l, i, h => by
    have ih := le_listMax (y :: l)
    simp only [listMax]
    cases i with
    | zero => simp
    | succ i => exact le_trans (by simpa using ih i (by simpa using h)) (le_max_right _ _)

theorem chooseIdx_lt (e : ℂ) (next : List ℂ) (used : List ℕ) (h : next ≠ []) :
    chooseIdx e next used < next.length := by
  unfold chooseIdx
  have h1 : next.map (eigDist e) ≠ [] := by simpa using h
  simp only []
  split
  · have := argmin_lt ((next.map (eigDist e)).set (argmin (next.map (eigDist e)))
      (listMax (next.map (eigDist e)) + 1)) (by
        intro hc
        have := congrArg List.length hc
        simp at this
        exact h this)
    simpa using this
  · simpa using argmin_lt _ h1

theorem matchRow_length (next : List ℂ) : ∀ (cur : List ℂ) (used : List ℕ),
    (matchRow next cur used).length = cur.length
  | [], _ => rfl
  | e :: es, used => by simp [matchRow, matchRow_length next es]

theorem matchRow_lt (next : List ℂ) (h : next ≠ []) : ∀ (cur : List ℂ) (used : List ℕ),
    ∀ k ∈ matchRow next cur used, k < next.length
  | [], _ => by simp [matchRow]
  | e :: es, used => by
    intro k hk
    simp only [matchRow, List.mem_cons] at hk
    rcases hk with rfl | hk
    · exact chooseIdx_lt e next used h
    · exact matchRow_lt next h es _ k hk

/-- Row `r'` consists of (eigenvalue, eigenvector) pairs of row `r`: there is an
index list `ks` such that entry `j` of `r'` is entry `ks[j]` of `r`, in both lists. -/
def PicksFrom {V : Type} (r r' : EigRow V) : Prop :=
  ∃ ks : List ℕ, ks.length = r.evals.length ∧
    ∃ _ : ∀ k ∈ ks, k < r.evals.length ∧ k < r.evecs.length,
      r'.evals.map some = ks.map (fun k => r.evals[k]?) ∧
      r'.evecs.map some = ks.map (fun k => r.evecs[k]?)

theorem takeRow_picks {V : Type} [Inhabited V] (prev : List ℂ) (next : EigRow V) (used : List ℕ)
    (hl : prev.length = next.evals.length) (hv : next.evecs.length = next.evals.length)
    (hm : next.evals ≠ []) : PicksFrom next (takeRow next (matchRow next.evals prev used)) := by
  have hb : ∀ k ∈ matchRow next.evals prev used, k < next.evals.length ∧ k < next.evecs.length := by
    intro k hk
    have := matchRow_lt next.evals hm prev used k hk
    omega
  refine ⟨matchRow next.evals prev used, by rw [matchRow_length, hl], hb, ?_, ?_⟩
  · simp only [takeRow, List.map_map]
    refine List.map_congr_left fun k hk => ?_
    simp [(hb k hk).1]
  · simp only [takeRow, List.map_map]
    refine List.map_congr_left fun k hk => ?_
    simp [(hb k hk).2]

theorem sortFrom_picks {V : Type} [Inhabited V] (m : ℕ) (hm : 0 < m) :
    ∀ (rest : List (EigRow V)) (prev : EigRow V), prev.evals.length = m →
      (∀ r ∈ rest, r.evals.length = m ∧ r.evecs.length = m) →
      List.Forall₂ PicksFrom rest (sortFrom prev rest)
  | [], _, _, _ => by simp [sortFrom]
  | next :: rest, prev, hp, hr => by
    have hn := hr next (by simp)
    simp only [sortFrom]
    refine List.Forall₂.cons ?_ (sortFrom_picks m hm rest _ ?_ fun r h => hr r (by simp [h]))
    · exact takeRow_picks _ _ _ (by omega) (by omega) (by
        intro hc; rw [hc] at hn; simp at hn; omega)
    · simp [takeRow, matchRow_length, hp]

/-- **C07.** For any number of rows of `m ≥ 1` modes, `sort_eigenmodes` returns as
many rows, the first one unchanged, and every row consists of (eigenvalue,
eigenvector) pairs of the input row with the same number. -/
theorem C07_sort_picks_pairs {V : Type} [Inhabited V] (m : ℕ) (hm : 0 < m)
    (first : EigRow V) (rest : List (EigRow V))
    (h : ∀ r ∈ first :: rest, r.evals.length = m ∧ r.evecs.length = m) :
    (sortEigenmodes (first :: rest)).head? = some first ∧
    (sortEigenmodes (first :: rest)).length = (first :: rest).length ∧
    List.Forall₂ PicksFrom (first :: rest) (sortEigenmodes (first :: rest)) := by
  have hf := h first (by simp)
  have hrest := sortFrom_picks m hm rest first hf.1 fun r hr => h r (by simp [hr])
  refine ⟨rfl, ?_, ?_⟩
  · simp [sortEigenmodes, hrest.length_eq]
  · refine List.Forall₂.cons ?_ hrest
    refine ⟨List.range first.evals.length, by simp, ?_, ?_, ?_⟩
    · intro k hk; simp at hk; omega
    · apply List.ext_getElem <;> simp
    · apply List.ext_getElem
      · simp; omega
      · intro i h1 h2; simp at h1 h2 ⊢

/-- **C07.** `sort_modes` splits the very same rows: weave is columns 2 and 3,
capsize column 1, caster column 0; together they are the sorted row. -/
theorem C07_sort_modes_splits_rows {V : Type} [Inhabited V] (first : EigRow V)
    (rest : List (EigRow V))
    (h : ∀ r ∈ first :: rest, r.evals.length = 4 ∧ r.evecs.length = 4) (i : ℕ)
    (hi : i < (first :: rest).length) :
    ∃ row, (sortEigenmodes (first :: rest))[i]? = some row ∧
      ∃ wv cap cas, (sortModes (first :: rest)).1[i]? = some wv ∧
        (sortModes (first :: rest)).2.1[i]? = some cap ∧
        (sortModes (first :: rest)).2.2[i]? = some cas ∧
        row.evals = [cas.1, cap.1] ++ wv.1 ∧ row.evecs = [cas.2, cap.2] ++ wv.2 := by
  obtain ⟨_, hlen, hpick⟩ := C07_sort_picks_pairs 4 (by norm_num) first rest h
  have hi' : i < (sortEigenmodes (first :: rest)).length := by omega
  have hp := hpick.get (i := i) (by simpa using hi) (by simpa using hi')
  set row := (sortEigenmodes (first :: rest))[i] with hrow
  have hin := h ((first :: rest)[i]) (List.getElem_mem hi)
  obtain ⟨ks, hks, _, he, hv⟩ := hp
  have l1 : row.evals.length = 4 := by
    have := congrArg List.length he
    simp at this hks
    rw [hrow, this, hks]; exact hin.1
  have l2 : row.evecs.length = 4 := by
    have := congrArg List.length hv
    simp at this hks
    rw [hrow, this, hks]; exact hin.1
  refine ⟨row, List.getElem?_eq_getElem hi', (row.evals.drop 2, row.evecs.drop 2),
    (row.evals.getD 1 0, row.evecs.getD 1 default), (row.evals.getD 0 0, row.evecs.getD 0 default),
    ?_, ?_, ?_, ?_, ?_⟩
  · simp [sortModes, List.getElem?_eq_getElem hi', hrow]
  · simp [sortModes, List.getElem?_eq_getElem hi', hrow]
  · simp [sortModes, List.getElem?_eq_getElem hi', hrow]
  · match hh : row.evals, l1 with
    | [a, b, c, d], _ => simp
  · match hh : row.evecs, l2 with
    | [a, b, c, d], _ => simp

/-- non-vacuity of C07: two rows of two modes -/
example : ∀ r ∈ [(⟨[1, 2], ['a', 'b']⟩ : EigRow Char), ⟨[2, 1], ['c', 'd']⟩],
    r.evals.length = 2 ∧ r.evecs.length = 2 := by simp

/-! ## C08 -/

theorem eigDist_ofReal (a b : ℝ) : eigDist (a : ℂ) (b : ℂ) = |b - a| := by
  rw [eigDist_eq_dist, Complex.dist_eq, ← Complex.ofReal_sub, Complex.norm_real, Real.norm_eq_abs,
    abs_sub_comm]

/-- **C08 is false.** Three modes: the eigenvalues 0, 1, 2 at one speed, 0, 10,
20 at the next one.  Modes two and three both want index 0, which is used, and
both get index 1: eigenvalue 20 is lost, 10 is duplicated. -/
theorem C08_sort_is_not_a_permutation :
    ∃ rows : List (EigRow Unit), (∀ r ∈ rows, r.evals.length = 3 ∧ r.evecs.length = 3) ∧
      ¬ List.Forall₂ (fun r r' => List.Perm r.evals r'.evals) rows (sortEigenmodes rows) := by
  let r0 : EigRow Unit := ⟨[((0 : ℝ) : ℂ), ((1 : ℝ) : ℂ), ((2 : ℝ) : ℂ)], [(), (), ()]⟩
  let r1 : EigRow Unit := ⟨[((0 : ℝ) : ℂ), ((10 : ℝ) : ℂ), ((20 : ℝ) : ℂ)], [(), (), ()]⟩
  refine ⟨[r0, r1], by simp [r0, r1], ?_⟩
  have hm : matchRow r1.evals r0.evals [] = [0, 1, 1] := by
    simp only [r0, r1, matchRow, chooseIdx, List.map_cons, List.map_nil, eigDist_ofReal]
    norm_num [argmin, listMax]
  intro hcontra
  simp only [sortEigenmodes, sortFrom, hm] at hcontra
  have h2 := (List.forall₂_cons.1 (List.forall₂_cons.1 hcontra).2).1
  have hmem : ((20 : ℝ) : ℂ) ∈ (takeRow r1 [0, 1, 1]).evals := h2.mem_iff.1 (by simp [r1])
  simp [takeRow, r1] at hmem

/-- Every current mode has its own nearest next eigenvalue. -/
def NearestDistinct (cur next : List ℂ) : Prop :=
  (cur.map fun e => argmin (next.map (eigDist e))).Nodup

theorem matchRow_of_distinct (next : List ℂ) : ∀ (cur : List ℂ) (used : List ℕ),
    (used ++ cur.map fun e => argmin (next.map (eigDist e))).Nodup →
    matchRow next cur used = cur.map fun e => argmin (next.map (eigDist e))
  | [], _, _ => rfl
  | e :: es, used, h => by
    have hn : argmin (next.map (eigDist e)) ∉ used := by
      intro hc
      have := List.nodup_append.1 h
      exact this.2.2 _ hc _ (by simp) rfl
    have hk : chooseIdx e next used = argmin (next.map (eigDist e)) := by
      simp [chooseIdx, hn]
    simp only [matchRow, hk, List.map_cons]
    rw [matchRow_of_distinct next es]
    simpa using h

theorem perm_of_nodup_indices (next : List ℂ) (ks : List ℕ) (hl : ks.length = next.length)
    (hn : ks.Nodup) (hb : ∀ k ∈ ks, k < next.length) :
    List.Perm next (ks.map fun k => next.getD k 0) := by
  have hp : List.Perm (List.range next.length) ks := by
    refine ((List.subperm_of_subset hn ?_).perm_of_length_le ?_).symm
    · intro k hk; simpa using hb k hk
    · simp [hl]
  have h1 : next = (List.range next.length).map fun k => next.getD k 0 := by
    apply List.ext_getElem <;> simp
    intro i h; simp [h]
  exact (List.Perm.of_eq h1).trans (hp.map _)

/-- **C08 (partial).** One sweep is a permutation, for any number of modes, when
every mode has its own nearest neighbour. -/
theorem C08_sweep_permutes_partial {V : Type} [Inhabited V] (prev next : EigRow V)
    (hl : prev.evals.length = next.evals.length) (hm : next.evals ≠ [])
    (hd : NearestDistinct prev.evals next.evals) :
    List.Perm next.evals (takeRow next (matchRow next.evals prev.evals [])).evals := by
  have hmr := matchRow_of_distinct next.evals prev.evals [] (by simpa [NearestDistinct] using hd)
  refine perm_of_nodup_indices _ _ (by rw [matchRow_length, hl]) ?_ (matchRow_lt _ hm _ _)
  rw [hmr]; exact hd

/-- Second choice: with two candidates, a mode whose nearest one is taken gets the other. -/
theorem chooseIdx_two (e a b : ℂ) (k : ℕ) (hk : k < 2) : chooseIdx e [a, b] [k] ≠ k := by
  unfold chooseIdx
  simp only []
  split
  · rename_i hu
    simp only [List.mem_singleton] at hu
    rw [hu]
    intro hc
    set d := List.map (eigDist e) [a, b] with hd
    have hlen : d.length = 2 := by simp [hd]
    set d' := d.set k (listMax d + 1) with hd'
    have hlen' : d'.length = 2 := by simp [hd', hlen]
    -- the other index
    have ho : (1 - k) < d'.length := by omega
    have h1 := argmin_le d' (1 - k) ho
    rw [hc] at h1
    have e1 : d'.getD k 0 = listMax d + 1 := by
      have : k < d.length := by omega
      simp [hd', this]
    have e2 : d'.getD (1 - k) 0 = d.getD (1 - k) 0 := by
      have : k ≠ 1 - k := by omega
      simp [hd', List.getElem?_set, this]
    have h2 := le_listMax d (1 - k) (by omega)
    rw [e1, e2] at h1
    linarith
  · rename_i hu
    simpa using hu

/-- **C08 (partial).** For two modes `sort_eigenmodes` permutes every row, however
many speeds there are. -/
theorem C08_sort_two_modes_permutes_partial {V : Type} [Inhabited V] (rows : List (EigRow V))
    (h : ∀ r ∈ rows, r.evals.length = 2) :
    List.Forall₂ (fun r r' => List.Perm r.evals r'.evals) rows (sortEigenmodes rows) := by
  have step : ∀ prev next : EigRow V, prev.evals.length = 2 → next.evals.length = 2 →
      List.Perm next.evals (takeRow next (matchRow next.evals prev.evals [])).evals := by
    intro prev next hp hn
    have hne : next.evals ≠ [] := by intro hc; rw [hc] at hn; simp at hn
    refine perm_of_nodup_indices _ _ (by rw [matchRow_length, hp, hn]) ?_ (matchRow_lt _ hne _ _)
    obtain ⟨x, y, hxy⟩ := List.length_eq_two.1 hp
    obtain ⟨a, b, hab⟩ := List.length_eq_two.1 hn
    rw [hxy, hab]
    have hlt := chooseIdx_lt x [a, b] [] (by simp)
    have := chooseIdx_two y a b (chooseIdx x [a, b] []) (by simpa using hlt)
    simp [matchRow]
    exact fun hc => this hc.symm
  have from' : ∀ (rest : List (EigRow V)) (prev : EigRow V), prev.evals.length = 2 →
      (∀ r ∈ rest, r.evals.length = 2) →
      List.Forall₂ (fun r r' => List.Perm r.evals r'.evals) rest (sortFrom prev rest) := by
    intro rest
    induction rest with
    | nil => intro _ _ _; simp [sortFrom]
    | cons next rest ih =>
      intro prev hp hr
      refine List.Forall₂.cons (step prev next hp (hr next (by simp))) (ih _ ?_ fun r h => hr r (by simp [h]))
      simp [takeRow, matchRow_length, hp]
  cases rows with
  | nil => simp [sortEigenmodes]
  | cons first rest =>
    exact List.Forall₂.cons (List.Perm.refl _) (from' rest first (h first (by simp)) fun r hr => h r (by simp [hr]))

/-- non-vacuity of the partial theorems: four well separated modes are distinct -/
example : NearestDistinct [((0 : ℝ) : ℂ), ((5 : ℝ) : ℂ)] [((6 : ℝ) : ℂ), ((1 : ℝ) : ℂ)] := by
  simp only [NearestDistinct, List.map_cons, List.map_nil, eigDist_ofReal]
  norm_num [argmin]

end BP
