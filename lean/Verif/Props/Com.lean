import Mathlib.Tactic.FieldSimp
import Mathlib.Tactic.Ring
import Mathlib.Tactic.Linarith
import Mathlib.Tactic.LinearCombination
import Mathlib.Tactic.NormNum
import Mathlib.Algebra.BigOperators.Fin
import Verif.Model.Inertia
import Verif.Spec.Product
import Verif.Spec.RigidBody

set_option linter.unusedSimpArgs false

/-!
# C28-C33: centres of mass and the principal-to-benchmark conversion
-/

namespace BP

open Real Matrix

/-! ## C31 cartesian -/

theorem product_length {α : Type} (arrays : List (List α)) :
    (Spec.product arrays).length = (arrays.map List.length).prod := by
  induction arrays with
  | nil => simp [Spec.product]
  | cons a rest ih => simp [Spec.product, List.length_flatMap, ih]

theorem zip_blocks {α : Type} (a : List α) (sub : List (List α)) :
    List.zipWith (fun x r => x :: r) (a.flatMap fun x => List.replicate sub.length x)
      ((List.range a.length).flatMap fun _ => sub) =
    a.flatMap fun x => sub.map fun r => x :: r := by
  induction a with
  | nil => simp
  | cons x a ih =>
    have h1 : (List.range (x :: a).length).flatMap (fun _ => sub) =
        sub ++ (List.range a.length).flatMap fun _ => sub := by
      rw [List.length_cons, List.range_succ_eq_map, List.flatMap_cons, List.flatMap_map]
    rw [h1, List.flatMap_cons, List.flatMap_cons, List.zipWith_append (by simp), ih]
    congr 1
    clear ih h1
    induction sub with
    | nil => simp
    | cons r sub ih => simp [List.replicate_succ, ih]

theorem prod_div_length {α : Type} (a : List α) (rest : List (List α)) (h : a ≠ []) :
    ((a :: rest).map List.length).prod / a.length = (rest.map List.length).prod := by
  have : 0 < a.length := List.length_pos_iff.2 h
  simp [Nat.mul_div_cancel_left _ this]

theorem col_length {α : Type} (a : List α) (m : ℕ) :
    (a.flatMap fun x => List.replicate m x).length = a.length * m := by
  simp [List.length_flatMap]

/-- **C31.** For any positive number of non-empty arrays of any lengths, `cartesian`
returns the cartesian product in lexicographic order of positions. -/
theorem C31_cartesian_is_product {α : Type} (arrays : List (List α)) (h0 : arrays ≠ [])
    (h : ∀ a ∈ arrays, a ≠ []) : cartesian arrays = .ok (Spec.product arrays) := by
  unfold cartesian
  induction arrays with
  | nil => exact absurd rfl h0
  | cons a rest ih =>
    have ha : a ≠ [] := h a (by simp)
    have hcol : (a.flatMap fun x => List.replicate
        (((a :: rest).map List.length).prod / a.length) x).length =
        ((a :: rest).map List.length).prod := by
      rw [col_length, prod_div_length a rest ha]; simp
    rw [cartesianInto]
    simp only [hcol, true_or, if_true]
    cases rest with
    | nil =>
      have : ((([a] : List (List α)).map List.length).prod / a.length) = 1 := by
        rw [prod_div_length a [] ha]; simp
      simp only [this]
      simp [Spec.product, List.replicate_one, List.flatMap_singleton']
      rw [List.map_eq_flatMap]
    | cons b rest =>
      have hm := prod_div_length a (b :: rest) ha
      have hmin : min (((a :: b :: rest).map List.length).prod / a.length)
          ((a :: b :: rest).map List.length).prod = ((b :: rest).map List.length).prod := by
        rw [hm]
        have hp : 0 < a.length := List.length_pos_iff.2 ha
        apply min_eq_left
        rw [List.map_cons, List.prod_cons]
        exact Nat.le_mul_of_pos_left _ hp
      rw [hmin]
      simp only [ih (by simp) (fun x hx => h x (List.mem_cons_of_mem _ hx))]
      have hl := product_length (b :: rest)
      rw [hm, ← hl, zip_blocks]
      rfl

/-- **C31.** A row is in the product iff it picks one element of each array in turn; there
are as many rows as the product of the sizes; no row is repeated when no array has repeated
entries. -/
theorem C31_product_rows {α : Type} (arrays : List (List α)) :
    (∀ row, row ∈ Spec.product arrays ↔ List.Forall₂ (fun x a => x ∈ a) row arrays) ∧
    (Spec.product arrays).length = (arrays.map List.length).prod ∧
    ((∀ a ∈ arrays, a.Nodup) → (Spec.product arrays).Nodup) := by
  refine ⟨?_, product_length arrays, ?_⟩
  · induction arrays with
    | nil => intro row; cases row <;> simp [Spec.product]
    | cons a rest ih =>
      intro row
      simp only [Spec.product, List.mem_flatMap, List.mem_map]
      constructor
      · rintro ⟨x, hx, r, hr, rfl⟩
        exact List.Forall₂.cons hx ((ih r).1 hr)
      · intro hrow
        cases hrow with
        | cons hx hr => exact ⟨_, hx, _, (ih _).2 hr, rfl⟩
  · induction arrays with
    | nil => intro _; simp [Spec.product]
    | cons a rest ih =>
      intro hn
      have hr := ih fun x hx => hn x (List.mem_cons_of_mem _ hx)
      have ha := hn a (by simp)
      rw [Spec.product, List.nodup_flatMap]
      refine ⟨fun x _ => hr.map fun r s e => by simpa using e, ?_⟩
      refine ha.imp ?_
      intro x y hxy
      simp only [Function.onFun]
      intro l h1 h2
      simp only [List.mem_map] at h1 h2
      obtain ⟨r, _, rfl⟩ := h1
      obtain ⟨s, _, h⟩ := h2
      exact hxy (by simpa using (List.cons.inj h).1.symm)

/-- **C31.** An empty first array followed by arrays with more than one combination makes
the call raise `ValueError` instead of returning an empty product. -/
theorem C31_empty_first_array_raises {α : Type} (b : List α) (rest : List (List α))
    (h : ∀ a ∈ b :: rest, a ≠ []) (h2 : 2 ≤ ((b :: rest).map List.length).prod) :
    cartesian ([] :: b :: rest) = .error .valueError := by
  unfold cartesian
  rw [cartesianInto]
  simp only [List.map_cons, List.length_nil, List.prod_cons, zero_mul, Nat.zero_div,
    List.flatMap_nil, true_or, if_true, Nat.min_self]
  have hb : b ≠ [] := h b (by simp)
  rw [cartesianInto]
  have hcol : (b.flatMap fun x => List.replicate
        (((b :: rest).map List.length).prod / b.length) x).length =
        ((b :: rest).map List.length).prod := by
      rw [col_length, prod_div_length b rest hb]; simp
  simp only [hcol]
  rw [if_neg]
  omega

/-- non-vacuity of C31: a mixed product -/
example : cartesian [[1, 2, 3], [4, 5], [6, 7]] = .ok
    [[1, 4, 6], [1, 4, 7], [1, 5, 6], [1, 5, 7], [2, 4, 6], [2, 4, 7], [2, 5, 6], [2, 5, 7],
     [3, 4, 6], [3, 4, 7], [3, 5, 6], [3, 5, 7]] := by
  rw [C31_cartesian_is_product _ (by simp) (by simp)]; rfl
example : cartesian [[], [1, 2]] = .error .valueError :=
  C31_empty_first_array_raises [1, 2] [] (by simp) (by simp)

/-! ## C28 center_of_mass -/

theorem cartesian_range (n : ℕ) :
    cartesian [List.range n, List.range n] =
      .ok ((List.range n).flatMap fun i => (List.range n).map fun j => [i, j]) := by
  by_cases hn : n = 0
  · subst hn; rfl
  · rw [C31_cartesian_is_product _ (by simp) (by simpa using hn)]
    have h1 : ∀ l : List ℕ, (l.flatMap fun x => [[x]]) = l.map fun x => [x] := fun l => by
      rw [List.map_eq_flatMap]
    simp [Spec.product, h1, List.map_map, Function.comp_def]

/-- The pairs of lines that center_of_mass intersects. -/
noncomputable def comPairs (lines : List (ℝ × ℝ)) : List ((ℝ × ℝ) × (ℝ × ℝ)) :=
  (((List.range lines.length).flatMap fun i => (List.range lines.length).map fun j => [i, j]).filter
    fun row : List ℕ => decide (row.getD 0 0 ≠ row.getD 1 0)).map fun row =>
      (lines.getD (row.getD 0 0) (0, 0), lines.getD (row.getD 1 0) (0, 0))

open Classical in
theorem centerOfMass_eq (lines : List (ℝ × ℝ)) :
    centerOfMass lines =
      if ∃ q ∈ comPairs lines, q.1.1 = q.2.1 then .error .linAlgError
      else if comPairs lines = [] then .error .zeroDivision
      else .ok ((((comPairs lines).map fun q => lineIntersection q.1 q.2).map fun p => p 0).sum /
        ((comPairs lines).map fun q => lineIntersection q.1 q.2).length,
        (((comPairs lines).map fun q => lineIntersection q.1 q.2).map fun p => p 1).sum /
        ((comPairs lines).map fun q => lineIntersection q.1 q.2).length) := by
  simp only [centerOfMass, indexPairs, cartesian_range]
  rfl

/-- `comPairs` as a comprehension over all ordered pairs of different positions. -/
theorem mem_comPairs (lines : List (ℝ × ℝ)) (q : (ℝ × ℝ) × (ℝ × ℝ)) :
    q ∈ comPairs lines ↔ ∃ i j : Fin lines.length, i ≠ j ∧ q = (lines[i], lines[j]) := by
  simp only [comPairs, List.mem_map, List.mem_filter, List.mem_flatMap, List.mem_range,
    decide_eq_true_eq]
  constructor
  · rintro ⟨row, ⟨⟨i, hi, j, hj, rfl⟩, hne⟩, rfl⟩
    refine ⟨⟨i, hi⟩, ⟨j, hj⟩, ?_, ?_⟩
    · intro e; apply hne; simpa using congrArg Fin.val e
    · simp [List.getElem?_eq_getElem hi, List.getElem?_eq_getElem hj]
  · rintro ⟨i, j, hne, rfl⟩
    refine ⟨[i.1, j.1], ⟨⟨i.1, i.2, j.1, j.2, rfl⟩, ?_⟩, ?_⟩
    · simpa [Fin.ext_iff] using hne
    · simp [List.getElem?_eq_getElem i.2, List.getElem?_eq_getElem j.2]

theorem sum_offDiag {n : ℕ} (F : Fin n × Fin n → ℝ) :
    (∑ p ∈ (Finset.univ : Finset (Fin n)).offDiag, F p) =
      ∑ i : Fin n, ∑ j : Fin n, if i = j then 0 else F (i, j) := by
  have hoff : (Finset.univ : Finset (Fin n)).offDiag =
      Finset.univ.filter fun p : Fin n × Fin n => p.1 ≠ p.2 := by
    ext p; simp [Finset.mem_offDiag]
  rw [hoff, Finset.sum_filter, Fintype.sum_prod_type]
  apply Finset.sum_congr rfl
  intro i _
  apply Finset.sum_congr rfl
  intro j _
  by_cases h : i = j <;> simp [h]

theorem sum_comPairs (lines : List (ℝ × ℝ)) (f : (ℝ × ℝ) × (ℝ × ℝ) → ℝ) :
    ((comPairs lines).map f).sum =
      ∑ p ∈ (Finset.univ : Finset (Fin lines.length)).offDiag, f (lines[p.1], lines[p.2]) := by
  have hfin : ∀ (n : ℕ) (g : ℕ → ℝ), ((List.range n).map g).sum = ∑ i : Fin n, g i := by
    intro n g
    rw [← List.sum_ofFn]
    congr 1
    apply List.ext_getElem <;> simp
  have hfilter : ∀ (l : List (List ℕ)) (p : List ℕ → Bool) (g : List ℕ → ℝ),
      ((l.filter p).map g).sum = (l.map fun x => if p x then g x else 0).sum := by
    intro l p g
    induction l with
    | nil => simp
    | cons x l ih => by_cases hx : p x <;> simp [List.filter_cons, hx, ih]
  have hflat : ∀ (l : List ℕ) (g : ℕ → List (List ℕ)) (h : List ℕ → ℝ),
      ((l.flatMap g).map h).sum = (l.map fun i => ((g i).map h).sum).sum := by
    intro l g h
    induction l with
    | nil => simp
    | cons x l ih => simp [List.flatMap_cons, ih]
  rw [comPairs, List.map_map, hfilter, hflat, hfin]
  simp only [List.map_map, Function.comp_def]
  simp only [hfin]
  rw [sum_offDiag]
  apply Finset.sum_congr rfl
  intro i _
  apply Finset.sum_congr rfl
  intro j _
  by_cases h : i = j
  · subst h; simp
  · have h' : ¬ i.1 = j.1 := fun e => h (Fin.ext e)
    simp [h, h', List.getElem?_eq_getElem i.2, List.getElem?_eq_getElem j.2]

theorem length_comPairs (lines : List (ℝ × ℝ)) :
    ((comPairs lines).length : ℝ) = lines.length * ((lines.length : ℝ) - 1) := by
  have := sum_comPairs lines fun _ => 1
  simp only [List.map_const', List.sum_replicate, nsmul_eq_mul, mul_one] at this
  rw [this]
  simp only [Finset.sum_const, Finset.offDiag_card, Finset.card_univ, Fintype.card_fin, nsmul_eq_mul,
    mul_one]
  rcases Nat.eq_zero_or_pos lines.length with h | h
  · simp [h]
  · rw [Nat.cast_sub (Nat.le_mul_of_pos_left _ h)]; push_cast; ring

/-- `lineIntersection` solves both line equations when the slopes differ. -/
theorem lineIntersection_eq (l1 l2 : ℝ × ℝ) (h : l1.1 ≠ l2.1) :
    lineIntersection l1 l2 0 = (l2.2 - l1.2) / (l1.1 - l2.1) ∧
    lineIntersection l1 l2 1 = l1.1 * ((l2.2 - l1.2) / (l1.1 - l2.1)) + l1.2 := by
  have hd : l1.1 - l2.1 ≠ 0 := sub_ne_zero.2 h
  have hd' : -l1.1 * 1 - 1 * -l2.1 ≠ 0 := by
    intro e; apply hd; linarith
  have hd'' : -l1.1 + l2.1 ≠ 0 := by intro e; apply hd; linarith
  constructor
  · simp only [lineIntersection, invM]
    simp [Matrix.mulVec, dotProduct, Fin.sum_univ_two]
    field_simp
    ring
  · simp only [lineIntersection, invM]
    simp [Matrix.mulVec, dotProduct, Fin.sum_univ_two]
    field_simp
    ring

theorem slopes_ne {lines : List (ℝ × ℝ)} (hn : (lines.map Prod.fst).Nodup)
    {i j : Fin lines.length} (h : i ≠ j) : lines[i].1 ≠ lines[j].1 := by
  intro e
  apply h
  have := hn.getElem_inj_iff (i := i.1) (j := j.1) (hi := by simp) (hj := by simp)
  simp only [List.getElem_map] at this
  exact Fin.ext (this.1 e)

/-- **C28.** With pairwise different slopes and at least two lines, the answer is the mean
over all ordered pairs of different lines of their intersection point. -/
theorem C28_mean_of_intersections (lines : List (ℝ × ℝ)) (h2 : 2 ≤ lines.length)
    (hn : (lines.map Prod.fst).Nodup) :
    ∃ X : Fin lines.length → Fin lines.length → ℝ × ℝ,
      (∀ i j, i ≠ j → (X i j).2 = lines[i].1 * (X i j).1 + lines[i].2 ∧
        (X i j).2 = lines[j].1 * (X i j).1 + lines[j].2) ∧
      centerOfMass lines = .ok
        ((∑ p ∈ Finset.univ.offDiag, (X p.1 p.2).1) / (lines.length * (lines.length - 1)),
         (∑ p ∈ Finset.univ.offDiag, (X p.1 p.2).2) / (lines.length * (lines.length - 1))) := by
  refine ⟨fun i j => (lineIntersection lines[i] lines[j] 0, lineIntersection lines[i] lines[j] 1),
    ?_, ?_⟩
  · intro i j hij
    have hs := slopes_ne hn hij
    obtain ⟨e0, e1⟩ := lineIntersection_eq lines[i] lines[j] hs
    have hd : lines[i].1 - lines[j].1 ≠ 0 := sub_ne_zero.2 hs
    simp only [e0, e1]
    refine ⟨trivial, ?_⟩
    field_simp
    ring
  · rw [centerOfMass_eq, if_neg, if_neg]
    · have hl : ((((comPairs lines).map fun q => lineIntersection q.1 q.2).length : ℕ) : ℝ) =
          lines.length * (lines.length - 1) := by
        rw [List.length_map]; exact length_comPairs lines
      rw [hl, List.map_map, List.map_map, sum_comPairs, sum_comPairs]
      rfl
    · intro e
      have := length_comPairs lines
      rw [e] at this
      have h2' : (2 : ℝ) ≤ lines.length := by exact_mod_cast h2
      have h3 : (0 : ℝ) = lines.length * ((lines.length : ℝ) - 1) := by simpa using this
      nlinarith
    · rintro ⟨q, hq, he⟩
      obtain ⟨i, j, hij, rfl⟩ := (mem_comPairs lines q).1 hq
      exact slopes_ne hn hij he

/-- **C28.** Lines with pairwise different slopes through one point: the answer is that
point, whatever the number of lines. -/
theorem C28_concurrent_lines (lines : List (ℝ × ℝ)) (x z : ℝ) (h2 : 2 ≤ lines.length)
    (hn : (lines.map Prod.fst).Nodup) (hc : ∀ l ∈ lines, z = l.1 * x + l.2) :
    centerOfMass lines = .ok (x, z) := by
  obtain ⟨X, hX, e⟩ := C28_mean_of_intersections lines h2 hn
  have hXe : ∀ i j, i ≠ j → X i j = (x, z) := by
    intro i j hij
    obtain ⟨a1, a2⟩ := hX i j hij
    have b1 := hc lines[i] (List.getElem_mem _)
    have b2 := hc lines[j] (List.getElem_mem _)
    have hs : lines[i].1 - lines[j].1 ≠ 0 := sub_ne_zero.2 (slopes_ne hn hij)
    have hx : (X i j).1 = x := by
      apply mul_left_cancel₀ hs
      linear_combination a2 - a1 + b1 - b2
    ext
    · exact hx
    · rw [a1, hx, b1]
  have h2' : (2 : ℝ) ≤ lines.length := by exact_mod_cast h2
  have hcard : (lines.length : ℝ) * (lines.length - 1) ≠ 0 := by
    have : (0 : ℝ) < lines.length * (lines.length - 1) := by nlinarith
    exact this.ne'
  have hs : ∀ (f : ℝ × ℝ → ℝ), (∑ p ∈ (Finset.univ : Finset (Fin lines.length)).offDiag, f (X p.1 p.2)) =
      lines.length * (lines.length - 1) * f (x, z) := by
    intro f
    have h1 : (∑ p ∈ (Finset.univ : Finset (Fin lines.length)).offDiag, f (X p.1 p.2)) =
        ∑ p ∈ (Finset.univ : Finset (Fin lines.length)).offDiag, f (x, z) := by
      apply Finset.sum_congr rfl
      intro p hp
      rw [hXe p.1 p.2 (Finset.mem_offDiag.1 hp).2.2]
    have h3 := length_comPairs lines
    have h4 := sum_comPairs lines fun _ => f (x, z)
    rw [h1, ← h4]
    simp [List.sum_replicate, h3]
  rw [e, hs (fun p => p.1), hs (fun p => p.2), mul_div_cancel_left₀ _ hcard, mul_div_cancel_left₀ _ hcard]

/-- **C28.** Two parallel pendulum lines make the call raise; so do fewer than two lines. -/
theorem C28_failures (lines : List (ℝ × ℝ)) :
    (lines.length < 2 → centerOfMass lines = .error .zeroDivision) ∧
    (∀ i j : Fin lines.length, i ≠ j → lines[i].1 = lines[j].1 →
      centerOfMass lines = .error .linAlgError) := by
  refine ⟨fun h => ?_, fun i j hij he => ?_⟩
  · have hp : comPairs lines = [] := by
      rw [List.eq_nil_iff_forall_not_mem]
      intro q hq
      obtain ⟨i, j, hij, _⟩ := (mem_comPairs lines q).1 hq
      apply hij
      apply Fin.ext
      have := i.2; have := j.2; omega
    rw [centerOfMass_eq, hp]; simp
  · rw [centerOfMass_eq, if_pos]
    exact ⟨(lines[i], lines[j]), (mem_comPairs _ _).2 ⟨i, j, hij, rfl⟩, he⟩

/-- **C28.** The order in which the lines are listed is irrelevant. -/
theorem C28_permutation (lines lines' : List (ℝ × ℝ)) (hp : lines.Perm lines')
    (hn : (lines.map Prod.fst).Nodup) : centerOfMass lines = centerOfMass lines' := by
  classical
  have hn' : (lines'.map Prod.fst).Nodup := (hp.map Prod.fst).nodup_iff.1 hn
  by_cases h2 : lines.length < 2
  · rw [(C28_failures lines).1 h2, (C28_failures lines').1 (by rwa [← hp.length_eq])]
  push Not at h2
  have key : ∀ (l : List (ℝ × ℝ)), (l.map Prod.fst).Nodup → ∀ f : (ℝ × ℝ) × (ℝ × ℝ) → ℝ,
      ((comPairs l).map f).sum =
        (l.map fun a => (l.map fun b => if a.1 = b.1 then 0 else f (a, b)).sum).sum := by
    intro l hl f
    have hfin : ∀ (g : ℝ × ℝ → ℝ), (l.map g).sum = ∑ i : Fin l.length, g l[i] := by
      intro g
      rw [← List.sum_ofFn]
      congr 1
      apply List.ext_getElem <;> simp
    rw [sum_comPairs, hfin]
    simp only [hfin]
    rw [sum_offDiag]
    apply Finset.sum_congr rfl
    intro i _
    apply Finset.sum_congr rfl
    intro j _
    by_cases h : i = j
    · subst h; simp
    · have := slopes_ne hl h
      simp only [Fin.getElem_fin] at this
      simp [h, this]
  have hsum : ∀ f : (ℝ × ℝ) × (ℝ × ℝ) → ℝ,
      ((comPairs lines).map f).sum = ((comPairs lines').map f).sum := by
    intro f
    rw [key lines hn, key lines' hn']
    have h1 : ∀ a : ℝ × ℝ, (lines.map fun b => if a.1 = b.1 then 0 else f (a, b)).sum =
        (lines'.map fun b => if a.1 = b.1 then 0 else f (a, b)).sum :=
      fun a => (hp.map _).sum_eq
    simp only [h1]
    exact (hp.map _).sum_eq
  have aux : ∀ l : List (ℝ × ℝ), (l.map Prod.fst).Nodup → 2 ≤ l.length → centerOfMass l =
      .ok (((comPairs l).map fun q => lineIntersection q.1 q.2 0).sum / (l.length * (l.length - 1)),
        ((comPairs l).map fun q => lineIntersection q.1 q.2 1).sum / (l.length * (l.length - 1))) := by
    intro l hl h2
    rw [centerOfMass_eq, if_neg, if_neg]
    · rw [List.length_map, length_comPairs, List.map_map, List.map_map]; rfl
    · intro e
      have := length_comPairs l
      rw [e] at this
      have h2' : (2 : ℝ) ≤ l.length := by exact_mod_cast h2
      have h3 : (0 : ℝ) = l.length * ((l.length : ℝ) - 1) := by simpa using this
      nlinarith
    · rintro ⟨q, hq, he⟩
      obtain ⟨i, j, hij, rfl⟩ := (mem_comPairs l q).1 hq
      exact slopes_ne hl hij he
  rw [aux lines hn h2, aux lines' hn' (by rwa [← hp.length_eq]), hsum, hsum, hp.length_eq]

/-- non-vacuity of C28: three lines through (1, 2) -/
example : centerOfMass [(0, 2), (1, 1), (2, 0)] = .ok (1, 2) := by
  apply C28_concurrent_lines
  · simp
  · norm_num
  · simp; norm_num

/-! ## C29 com_line -/

/-- The reference point of a part in the symmetry plane, `(x, z)`. -/
noncomputable def comRef (rR rF w u1 u2 : ℝ) (part : String) : ℝ × ℝ :=
  if part = "B" then (0, -rR) else if part = "G" then (w - u1, -(rF + u2)) else (w, -rF)

/-- **C29.** For every known part the returned line is exactly the set of points from which
the part's reference point (rear wheel centre for B, front wheel centre for H and S, the
handlebar reference point for G) lies at signed perpendicular distance `a` from the axis with
direction angle `β = λ - α`.  Any other part raises. -/
theorem C29_com_line_geometry (alpha a lam rR rF w l1 l2 : ℝ) (part : String)
    (hcos : cos (lam - alpha * π / 180) ≠ 0) :
    (part ∉ ["B", "S", "H", "G"] → comLine alpha a lam rR rF w part l1 l2 = .error (.keyError "")) ∧
    ∀ m b beta, comLine alpha a lam rR rF w part l1 l2 = .ok (m, b, beta) →
      beta = lam - alpha * π / 180 ∧
      (∃ u1 u2, (part = "G" → fwheelToHandlebarRef lam l1 l2 = .ok (u1, u2)) ∧
        (∀ x z, z = m * x + b ↔
          ((comRef rR rF w u1 u2 part).1 - x) * sin beta +
          ((comRef rR rF w u1 u2 part).2 - z) * cos beta = a)) := by
  have aux : ∀ rx rz x z : ℝ, ∀ β, cos β ≠ 0 →
      (z = -tan β * x + (-a / cos β + rz + rx * tan β) ↔ (rx - x) * sin β + (rz - z) * cos β = a) := by
    intro rx rz x z β hc
    rw [Real.tan_eq_sin_div_cos]
    constructor
    · intro e
      subst e
      field_simp
      ring
    · intro e
      subst e
      field_simp
      ring
  constructor
  · intro h
    simp only [List.mem_cons, List.not_mem_nil, or_false, not_or] at h
    simp [comLine, h]
  · intro m b beta h
    simp only [comLine] at h
    split_ifs at h with hB hS hG
    · obtain ⟨rfl, rfl, rfl⟩ := by simpa using h
      refine ⟨rfl, 0, 0, by simp [hB], fun x z => ?_⟩
      rw [← aux _ _ _ _ _ hcos]
      subst hB
      simp only [comRef, String.reduceEq, if_true, if_false]
      constructor <;> intro e <;> linarith
    · obtain ⟨rfl, rfl, rfl⟩ := by simpa using h
      refine ⟨rfl, 0, 0, ?_, fun x z => ?_⟩
      · rcases hS with rfl | rfl <;> simp
      · rw [← aux _ _ _ _ _ hcos]
        rcases hS with rfl | rfl <;> simp only [comRef, String.reduceEq, if_true, if_false] <;> constructor <;> intro e <;> linarith
    · cases hf : fwheelToHandlebarRef lam l1 l2 with
      | error e => rw [hf] at h; simp at h
      | ok u =>
        obtain ⟨u1, u2⟩ := u
        rw [hf] at h
        obtain ⟨rfl, rfl, rfl⟩ := by simpa using h
        refine ⟨rfl, u1, u2, fun _ => rfl, fun x z => ?_⟩
        rw [← aux _ _ _ _ _ hcos]
        subst hG
        simp only [comRef, String.reduceEq, if_true, if_false]
        constructor <;> intro e <;> linarith

/-- **C29.** `|a|` is the distance of the reference point from the line. -/
theorem C29_offset_is_distance (beta a rx rz : ℝ) :
    (∀ x z, (rx - x) * sin beta + (rz - z) * cos beta = a → |a| ≤ √((rx - x) ^ 2 + (rz - z) ^ 2)) ∧
    ∃ x z, (rx - x) * sin beta + (rz - z) * cos beta = a ∧ |a| = √((rx - x) ^ 2 + (rz - z) ^ 2) := by
  have hsc := sin_sq_add_cos_sq beta
  refine ⟨fun x z e => ?_, rx - a * sin beta, rz - a * cos beta, ?_, ?_⟩
  · apply Real.abs_le_sqrt
    have := sq_nonneg ((rx - x) * cos beta - (rz - z) * sin beta)
    have h1 : a ^ 2 + ((rx - x) * cos beta - (rz - z) * sin beta) ^ 2 =
        (rx - x) ^ 2 + (rz - z) ^ 2 := by
      rw [← e]
      linear_combination ((rx - x) ^ 2 + (rz - z) ^ 2) * hsc
    linarith
  · linear_combination a * hsc
  · have : (rx - (rx - a * sin beta)) ^ 2 + (rz - (rz - a * cos beta)) ^ 2 = a ^ 2 := by
      linear_combination a ^ 2 * hsc
    rw [this, Real.sqrt_sq_eq_abs]

/-- non-vacuity of C29 -/
example : ∃ m b beta, comLine 0 1 0 (1/3) (1/3) 1 "H" 0 0 = .ok (m, b, beta) :=
  ⟨_, _, _, by simp only [comLine]; simp; exact ⟨rfl, rfl, rfl⟩⟩

/-! ## C30 total_com -/

/-- **C30.** Total mass and mass-weighted mean. -/
theorem C30_weighted_mean (bodies : List (ℝ × Vec3)) (h : (bodies.map Prod.fst).sum ≠ 0) :
    (totalCom bodies).1 = (bodies.map Prod.fst).sum ∧
    ∀ i, (totalCom bodies).1 * (totalCom bodies).2 i = (bodies.map fun b => b.1 * b.2 i).sum := by
  refine ⟨rfl, fun i => ?_⟩
  simp only [totalCom]
  exact mul_div_cancel₀ _ h

/-- **C30.** Merging groups first, in any grouping, gives the same mass and centre. -/
theorem C30_grouping (groups : List (List (ℝ × Vec3)))
    (h : ∀ g ∈ groups, (g.map Prod.fst).sum ≠ 0) :
    totalCom (groups.map totalCom) = totalCom groups.flatten := by
  have h1 : ((groups.map totalCom).map fun b => b.1).sum =
      (groups.flatten.map fun b => b.1).sum := by
    clear h
    induction groups with
    | nil => simp
    | cons g gs ih =>
      rw [List.flatten_cons, List.map_append, List.sum_append, ← ih]
      simp [totalCom]
  have h2 : ∀ i, ((groups.map totalCom).map fun b => b.1 * b.2 i).sum =
      (groups.flatten.map fun b => b.1 * b.2 i).sum := by
    intro i
    clear h1
    induction groups with
    | nil => simp
    | cons g gs ih =>
      rw [List.flatten_cons, List.map_append, List.sum_append,
        ← ih fun x hx => h x (List.mem_cons_of_mem _ hx)]
      rw [List.map_cons, List.map_cons, List.sum_cons, (C30_weighted_mean g (h g (by simp))).2 i]
  unfold totalCom at *
  simp only [h1]
  refine Prod.ext rfl ?_
  funext i
  simp only
  have := h2 i
  rw [this]

/-- **C30.** The result does not depend on the order of the bodies, and moving all bodies
by `d` moves the centre by `d`. -/
theorem C30_order_and_translation (bodies bodies' : List (ℝ × Vec3)) (d : Vec3)
    (h : (bodies.map Prod.fst).sum ≠ 0) :
    (bodies.Perm bodies' → totalCom bodies = totalCom bodies') ∧
    (totalCom (bodies.map fun b => (b.1, b.2 + d))).2 = (totalCom bodies).2 + d := by
  constructor
  · intro hp
    have h1 := (hp.map fun b : ℝ × Vec3 => b.1).sum_eq
    have h2 : ∀ i, (bodies.map fun b => b.1 * b.2 i).sum = (bodies'.map fun b => b.1 * b.2 i).sum :=
      fun i => (hp.map _).sum_eq
    simp only [totalCom, h1, h2]
  · funext i
    have h1 : ((bodies.map fun b => (b.1, b.2 + d)).map fun b => b.1).sum =
        (bodies.map fun b => b.1).sum := by simp [List.map_map, Function.comp_def]
    have h2 : ((bodies.map fun b => (b.1, b.2 + d)).map fun b : ℝ × Vec3 => b.1 * b.2 i).sum =
        (bodies.map fun b => b.1 * b.2 i).sum + (bodies.map fun b => b.1).sum * d i := by
      clear h h1
      induction bodies with
      | nil => simp
      | cons b bs ih =>
        simp only [List.map_cons, List.sum_cons, Pi.add_apply] at *
        rw [ih]; ring
    simp only [totalCom, h1, h2, Pi.add_apply]
    have h' : (bodies.map fun b => b.1).sum ≠ 0 := h
    rw [add_div, mul_div_cancel_left₀ _ h']

/-- **C30.** With non-negative masses the centre stays within the bodies' extent. -/
theorem C30_within_extent (bodies : List (ℝ × Vec3)) (i : Fin 3) (lo hi : ℝ)
    (hm : ∀ b ∈ bodies, 0 ≤ b.1) (hpos : 0 < (bodies.map Prod.fst).sum)
    (hb : ∀ b ∈ bodies, lo ≤ b.2 i ∧ b.2 i ≤ hi) :
    lo ≤ (totalCom bodies).2 i ∧ (totalCom bodies).2 i ≤ hi := by
  have key : ∀ l : List (ℝ × Vec3), (∀ b ∈ l, 0 ≤ b.1) → (∀ b ∈ l, lo ≤ b.2 i ∧ b.2 i ≤ hi) →
      lo * (l.map Prod.fst).sum ≤ (l.map fun b => b.1 * b.2 i).sum ∧
      (l.map fun b => b.1 * b.2 i).sum ≤ hi * (l.map Prod.fst).sum := by
    intro l h1 h2
    induction l with
    | nil => simp
    | cons b l ih =>
      obtain ⟨a1, a2⟩ := ih (fun x hx => h1 x (List.mem_cons_of_mem _ hx))
        (fun x hx => h2 x (List.mem_cons_of_mem _ hx))
      have p := h1 b (by simp)
      obtain ⟨q1, q2⟩ := h2 b (by simp)
      simp only [List.map_cons, List.sum_cons]
      constructor <;> nlinarith
  obtain ⟨k1, k2⟩ := key bodies hm hb
  simp only [totalCom]
  constructor
  · rw [le_div_iff₀ hpos]; exact k1
  · rw [div_le_iff₀ hpos]; exact k2

/-- non-vacuity of C30 -/
example : ∀ g ∈ [[(1, ![0, 0, 0]), (2, ![3, 0, 1])], [(4, ![1, 1, 1])]],
    ((g : List (ℝ × Vec3)).map Prod.fst).sum ≠ 0 := by
  intro g hg
  simp at hg
  rcases hg with rfl | rfl <;> norm_num

end BP
