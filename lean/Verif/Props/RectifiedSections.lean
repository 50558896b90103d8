import Verif.Props.PeriodFit

set_option linter.unusedSimpArgs false

/-!
# average_rectified_sections: C116
-/

namespace BP

open Real


/-- The samples `a, ..., b - 1` are a section: the deviation from the mean changes its sign after
sample `b` (or `b` is the end of the data) and after sample `a` (or `a` is the first sample), and
nowhere in between. -/
def Spec.IsSection (data : List ℝ) (e : ℕ × ℕ) : Prop :=
  let changes := Spec.ChangesAt false data (data.sum / data.length)
  e.1 < e.2 ∧ (e.1 = 0 ∨ changes e.1) ∧ (e.2 = data.length ∨ changes e.2) ∧
    ∀ c, e.1 < c → c < e.2 → ¬ changes c

/-- The average size of the deviations in a section. -/
noncomputable def Spec.strength (data : List ℝ) (e : ℕ × ℕ) : ℝ :=
  (∑ k ∈ Finset.Ico e.1 e.2, |Spec.deviation data k|) / (e.2 - e.1)

/-- `i` is the first sample of the section with the largest deviation. -/
def Spec.IsPeak (data : List ℝ) (e : ℕ × ℕ) (i : ℕ) : Prop :=
  e.1 ≤ i ∧ i < e.2 ∧ (∀ k, e.1 ≤ k → k < e.2 → |Spec.deviation data k| ≤ |Spec.deviation data i|) ∧
    ∀ k, e.1 ≤ k → k < i → |Spec.deviation data k| < |Spec.deviation data i|

/-- The section is above the average of all sections. -/
def Spec.Above (data : List ℝ) (secs : List (ℕ × ℕ)) (e : ℕ × ℕ) : Prop :=
  e ∈ secs ∧ (secs.map (Spec.strength data)).sum / secs.length < Spec.strength data e

/-- The first of the strongest sections above the average. -/
def Spec.Strongest (data : List ℝ) (secs : List (ℕ × ℕ)) (S : ℕ × ℕ) : Prop :=
  Spec.Above data secs S ∧ (∀ s ∈ secs, Spec.strength data s ≤ Spec.strength data S) ∧
    ∀ s ∈ secs, s.1 < S.1 → Spec.strength data s < Spec.strength data S

/-- The first of the weakest sections above the average. -/
def Spec.Weakest (data : List ℝ) (secs : List (ℕ × ℕ)) (W : ℕ × ℕ) : Prop :=
  Spec.Above data secs W ∧ (∀ s, Spec.Above data secs s → Spec.strength data W ≤ Spec.strength data s) ∧
    ∀ s, Spec.Above data secs s → s.1 < W.1 → Spec.strength data W < Spec.strength data s

/-- `secs` are the sections of the data in the order of time. -/
def Spec.SectionsOf (data : List ℝ) (secs : List (ℕ × ℕ)) : Prop :=
  secs.Pairwise (fun a b => a.1 < b.1) ∧ ∀ s, s ∈ secs ↔ Spec.IsSection data s

theorem consecutive_mem (l : List ℕ) (a0 N : ℕ) (hs : (a0 :: l).Pairwise (· < ·))
    (hN : ∀ c ∈ a0 :: l, c < N) (a b : ℕ) :
    (a, b) ∈ (a0 :: l).zip (l ++ [N]) ↔
      a < b ∧ a ∈ a0 :: l ∧ (b = N ∨ b ∈ l) ∧ ∀ c ∈ l, a < c → ¬ c < b := by
  induction l generalizing a0 with
  | nil =>
    have := hN a0 (by simp)
    simp
    rintro rfl rfl
    exact this
  | cons x l ih =>
    have hs' := (List.pairwise_cons.1 hs).2
    have h0x : a0 < x := (List.pairwise_cons.1 hs).1 x (by simp)
    have hxl : ∀ c ∈ l, x < c := (List.pairwise_cons.1 hs').1
    have hxN : x < N := hN x (by simp)
    rw [List.cons_append, List.zip_cons_cons, List.mem_cons,
      ih x hs' (fun c hc => hN c (List.mem_cons_of_mem _ hc)), Prod.mk.injEq]
    constructor
    · rintro (⟨rfl, rfl⟩ | ⟨h1, h2, h3, h4⟩)
      · refine ⟨h0x, by simp, Or.inr (by simp), ?_⟩
        intro c hc _ hcb
        rcases List.mem_cons.1 hc with rfl | hc
        · omega
        · have := hxl c hc; omega
      · refine ⟨h1, List.mem_cons_of_mem _ h2, ?_, ?_⟩
        · rcases h3 with h | h
          · exact Or.inl h
          · exact Or.inr (List.mem_cons_of_mem _ h)
        · intro c hc hac
          rcases List.mem_cons.1 hc with rfl | hc
          · rcases List.mem_cons.1 h2 with rfl | h2
            · omega
            · have := hxl a h2; omega
          · exact h4 c hc hac
    · rintro ⟨h1, h2, h3, h4⟩
      rcases List.mem_cons.1 h2 with rfl | h2
      · left
        refine ⟨rfl, ?_⟩
        have hb : ¬ x < b := h4 x (by simp) h0x
        rcases h3 with h | h
        · omega
        · rcases List.mem_cons.1 h with h | h
          · exact h
          · have := hxl b h; omega
      · right
        have hxa : x ≤ a := by
          rcases List.mem_cons.1 h2 with rfl | h2
          · exact le_rfl
          · exact (hxl a h2).le
        refine ⟨h1, h2, ?_, fun c hc => h4 c (List.mem_cons_of_mem _ hc)⟩
        rcases h3 with h | h
        · exact Or.inl h
        · rcases List.mem_cons.1 h with h | h
          · omega
          · exact Or.inr h

theorem consecutive_sorted (l r : List ℕ) (hs : l.Pairwise (· < ·)) :
    (l.zip r).Pairwise (fun a b => a.1 < b.1) := by
  induction l generalizing r with
  | nil => simp
  | cons x l ih => cases r with
    | nil => simp
    | cons y r =>
      rw [List.zip_cons_cons, List.pairwise_cons]
      exact ⟨fun e he => (List.pairwise_cons.1 hs).1 _ (List.of_mem_zip he).1,
        ih r (List.pairwise_cons.1 hs).2⟩

theorem SectionsOf_unique {data : List ℝ} {l l' : List (ℕ × ℕ)} (h : Spec.SectionsOf data l)
    (h' : Spec.SectionsOf data l') : l = l' := by
  refine List.Perm.eq_of_pairwise (le := fun a b : ℕ × ℕ => a.1 < b.1) ?_ h.1 h'.1 ?_
  · intro a b _ _ h h'; omega
  · rw [List.perm_ext_iff_of_nodup (h.1.imp (by rintro a b h rfl; omega))
      (h'.1.imp (by rintro a b h rfl; omega))]
    intro s; rw [h.2, h'.2]

theorem mem_signChanges (data : List ℝ) (m : ℝ) (i : ℕ) :
    i ∈ signChanges (data.map fun x => x - m) ↔ Spec.ChangesAt false data m i := by
  rw [← mem_maskedChanges]
  unfold maskedChanges
  simp

/-- The sections of the data, from the crossings. -/
noncomputable def sectionPairs (data : List ℝ) : List (ℕ × ℕ) :=
  let zc := signChanges (data.map fun x => x - listMean data)
  (0 :: zc).zip (zc ++ [data.length])

theorem changes_lt {mask : Bool} {data : List ℝ} {m : ℝ} {i : ℕ} (h : Spec.ChangesAt mask data m i) :
    i + 1 < data.length := by
  obtain ⟨a, b, -, hb, -⟩ := h
  exact (List.getElem?_eq_some_iff.1 hb).1

theorem sectionPairs_spec (data : List ℝ) (hne : data ≠ [])
    (h0 : ¬ Spec.ChangesAt false data (data.sum / data.length) 0) :
    Spec.SectionsOf data (sectionPairs data) := by
  set zc := signChanges (data.map fun x => x - listMean data) with hzc
  have hmem : ∀ i, i ∈ zc ↔ Spec.ChangesAt false data (data.sum / data.length) i :=
    fun i => mem_signChanges data _ i
  have hs : (0 :: zc).Pairwise (· < ·) := by
    rw [List.pairwise_cons]
    refine ⟨fun c hc => ?_, signChanges_sorted _⟩
    rcases Nat.eq_zero_or_pos c with rfl | h
    · exact absurd ((hmem 0).1 hc) h0
    · exact h
  have hlen : 0 < data.length := List.length_pos_of_ne_nil hne
  have hN : ∀ c ∈ 0 :: zc, c < data.length := by
    intro c hc
    rcases List.mem_cons.1 hc with rfl | hc
    · exact hlen
    · have := changes_lt ((hmem c).1 hc); omega
  refine ⟨consecutive_sorted _ _ hs, ?_⟩
  rintro ⟨a, b⟩
  show (a, b) ∈ (0 :: zc).zip (zc ++ [data.length]) ↔ _
  rw [consecutive_mem zc 0 data.length hs hN]
  unfold Spec.IsSection
  simp only [List.mem_cons, hmem]
  constructor
  · rintro ⟨h1, h2, h3, h4⟩; exact ⟨h1, h2, h3, fun c hac hcb hc => h4 c hc hac hcb⟩
  · rintro ⟨h1, h2, h3, h4⟩; exact ⟨h1, h2, h3, fun c hc hac hcb => h4 c hac hcb hc⟩

theorem sum_take (l : List ℝ) (b : ℕ) (hb : b ≤ l.length) :
    (l.take b).sum = ∑ k ∈ Finset.range b, l.getD k 0 := by
  induction b with
  | zero => simp
  | succ b ih =>
    rw [Finset.sum_range_succ, ← ih (by omega), List.take_succ_eq_append_getElem (by omega)]
    simp [List.getD, show b < l.length by omega]

theorem sum_slice (l : List ℝ) (a b : ℕ) (hab : a ≤ b) (hb : b ≤ l.length) :
    ((l.take b).drop a).sum = ∑ k ∈ Finset.Ico a b, l.getD k 0 := by
  rw [Finset.sum_Ico_eq_sub _ hab, ← sum_take l b hb, ← sum_take l a (by omega)]
  have := List.sum_take_add_sum_drop (l.take b) a
  rw [List.take_take, min_eq_left hab] at this
  linarith

theorem argmaxIdx_spec (l : List ℝ) (hl : l ≠ []) : ∃ h : argmaxIdx l < l.length,
    (∀ y ∈ l, y ≤ l[argmaxIdx l]) ∧ ∀ (k : ℕ) (hk : k < argmaxIdx l), l[k] < l[argmaxIdx l] := by
  obtain ⟨h1, h2⟩ := npMax_spec l hl
  have h : argmaxIdx l < l.length := by
    unfold argmaxIdx
    exact List.findIdx_lt_length_of_exists ⟨npMax l, h1, by simpa using h2⟩
  have hmax : ∀ y ∈ l, y ≤ l[argmaxIdx l] := by
    have := List.findIdx_getElem (xs := l) (w := h)
    exact of_decide_eq_true this
  refine ⟨h, hmax, fun k hk => ?_⟩
  unfold argmaxIdx at hk
  have := List.not_of_lt_findIdx hk
  simp only [Bool.not_eq_true, decide_eq_false_iff_not] at this
  push Not at this
  obtain ⟨y, hy, hlt⟩ := this
  exact hlt.trans_le (hmax y hy)

theorem argminIdx_spec (l : List ℝ) (hl : l ≠ []) : ∃ h : argminIdx l < l.length,
    (∀ y ∈ l, l[argminIdx l] ≤ y) ∧ ∀ (k : ℕ) (hk : k < argminIdx l), l[argminIdx l] < l[k] := by
  have hneg : argminIdx l = argmaxIdx (l.map fun x => -x) := by
    unfold argminIdx argmaxIdx
    rw [List.findIdx_map]
    congr 1
    ext x
    simp only [Function.comp]
    rw [decide_eq_decide]
    constructor
    · intro h y hy
      obtain ⟨z, hz, rfl⟩ := List.mem_map.1 hy
      have := h z hz; linarith
    · intro h y hy
      have := h (-y) (List.mem_map.2 ⟨y, hy, rfl⟩); linarith
  obtain ⟨h, h1, h2⟩ := argmaxIdx_spec (l.map fun x => -x) (by simpa using hl)
  have hlt : argminIdx l < l.length := by rw [hneg]; simpa using h
  refine ⟨hlt, ?_, ?_⟩
  · intro y hy
    have := h1 (-y) (List.mem_map.2 ⟨y, hy, rfl⟩)
    simp only [List.getElem_map, ← hneg] at this
    linarith
  · intro k hk
    have := h2 k (by rw [← hneg]; exact hk)
    simp only [List.getElem_map, ← hneg] at this
    linarith

theorem zip_add (l r : List ℕ) (f : ℕ × ℕ → ℕ) (h : l.length = r.length) :
    List.zipWith (· + ·) l ((l.zip r).map f) = (l.zip r).map fun e => e.1 + f e := by
  induction l generalizing r with
  | nil => simp
  | cons x l ih => cases r with
    | nil => simp at h
    | cons y r =>
      simp only [List.length_cons, Nat.add_right_cancel_iff] at h
      simp [ih r h]

/-- The samples of a section, without their sign. -/
noncomputable def slice (data : List ℝ) (e : ℕ × ℕ) : List ℝ :=
  ((((data.map fun x => x - listMean data).map abs).take e.2).drop e.1)

/-- The model in terms of the sections. -/
theorem averageRectified_eq (data : List ℝ) : averageRectifiedSections data =
    (let secs := sectionPairs data
     open Classical in
     if ∃ e ∈ secs, slice data e = [] then .error .valueError
     else
       let thr := listMean (secs.map fun e => listMean (slice data e))
       let high := secs.filter fun e => decide (thr < listMean (slice data e))
       if high = [] then .error .valueError
       else
         let i := (high.map fun e => e.1 + argmaxIdx (slice data e)).getD
           (argmaxIdx (high.map fun e => listMean (slice data e))) 0
         let j := (high.map fun e => e.1 + argmaxIdx (slice data e)).getD
           (argminIdx (high.map fun e => listMean (slice data e))) 0
         .ok ((data.take j).drop i)) := by
  unfold averageRectifiedSections npSplit
  simp only []
  set zc := signChanges (data.map fun x => x - listMean data) with hzc
  have hpairs : (0 :: zc).zip (zc ++ [((data.map fun x => x - listMean data).map abs).length]) =
      sectionPairs data := by
    rw [List.length_map, List.length_map]; rfl
  rw [hpairs]
  set secs := sectionPairs data with hsecs
  have hsl : ∀ e : ℕ × ℕ, List.drop e.1 (List.take e.2 ((data.map fun x => x - listMean data).map abs)) =
      slice data e := fun e => rfl
  simp only [hsl]
  have hind : List.zipWith (· + ·) (0 :: zc) ((secs.map fun e => slice data e).map argmaxIdx) =
      secs.map fun e => e.1 + argmaxIdx (slice data e) := by
    rw [List.map_map]
    exact zip_add (0 :: zc) (zc ++ [data.length]) _ (by simp)
  rw [hind]
  simp only [List.map_map, Function.comp_def, List.zip_map', List.filter_map, List.map_eq_nil_iff,
    List.any_map, List.any_eq_true, decide_eq_true_eq]
theorem section_bounds {data : List ℝ} {e : ℕ × ℕ} (h : Spec.IsSection data e) :
    e.1 < e.2 ∧ e.2 ≤ data.length := by
  obtain ⟨h1, -, h3, -⟩ := h
  refine ⟨h1, ?_⟩
  rcases h3 with h | h
  · exact h.le
  · have := changes_lt h; omega

theorem slice_length {data : List ℝ} {e : ℕ × ℕ} (h : Spec.IsSection data e) :
    (slice data e).length = e.2 - e.1 := by
  obtain ⟨h1, h2⟩ := section_bounds h
  unfold slice
  simp only [List.length_drop, List.length_take, List.length_map]
  omega

theorem abs_dev (data : List ℝ) (k : ℕ) (hk : k < data.length) :
    ((data.map fun x => x - listMean data).map abs).getD k 0 = |Spec.deviation data k| := by
  simp [List.getD, hk, Spec.deviation, listMean]

theorem slice_get {data : List ℝ} {e : ℕ × ℕ} (h : Spec.IsSection data e) (k : ℕ)
    (hk : k < (slice data e).length) : (slice data e)[k] = |Spec.deviation data (e.1 + k)| := by
  obtain ⟨h1, h2⟩ := section_bounds h
  have hl := slice_length h
  rw [← abs_dev data (e.1 + k) (by omega)]
  simp [slice, List.getD, show e.1 + k < data.length by omega]

theorem slice_mean {data : List ℝ} {e : ℕ × ℕ} (h : Spec.IsSection data e) :
    listMean (slice data e) = Spec.strength data e := by
  obtain ⟨h1, h2⟩ := section_bounds h
  unfold listMean
  rw [slice_length h]
  unfold Spec.strength slice
  rw [sum_slice _ _ _ h1.le (by simpa using h2), Nat.cast_sub h1.le]
  congr 1
  refine Finset.sum_congr rfl fun k hk => abs_dev data k ?_
  have := (Finset.mem_Ico.1 hk).2
  omega

theorem slice_peak {data : List ℝ} {e : ℕ × ℕ} (h : Spec.IsSection data e) :
    Spec.IsPeak data e (e.1 + argmaxIdx (slice data e)) := by
  have hl := slice_length h
  obtain ⟨h1, h2⟩ := section_bounds h
  obtain ⟨ha, hmax, hfirst⟩ := argmaxIdx_spec (slice data e) (by
    intro h0; rw [h0] at hl; simp at hl; omega)
  rw [slice_get h] at hmax
  refine ⟨by omega, by omega, ?_, ?_⟩
  · intro k hk1 hk2
    have hk : k - e.1 < (slice data e).length := by omega
    have := hmax _ (List.getElem_mem hk)
    rwa [slice_get h, show e.1 + (k - e.1) = k by omega] at this
  · intro k hk1 hk2
    have := hfirst (k - e.1) (by omega)
    rwa [slice_get h, slice_get h, show e.1 + (k - e.1) = k by omega] at this

theorem peak_unique {data : List ℝ} {e : ℕ × ℕ} {i j : ℕ} (hi : Spec.IsPeak data e i)
    (hj : Spec.IsPeak data e j) : i = j := by
  obtain ⟨a1, a2, a3, a4⟩ := hi
  obtain ⟨b1, b2, b3, b4⟩ := hj
  rcases lt_trichotomy i j with h | h | h
  · exact absurd (b4 i a1 h) (not_lt.2 (a3 j b1 b2))
  · exact h
  · exact absurd (a4 j b1 h) (not_lt.2 (b3 i a1 a2))

/-- The mean of a list that is not empty is exceeded unless all its members are equal. -/
theorem above_mean_iff (l : List ℝ) (hl : l ≠ []) :
    (∃ x ∈ l, l.sum / l.length < x) ↔ ¬ ∀ x ∈ l, ∀ y ∈ l, x = y := by
  have hn : (0 : ℝ) < l.length := by exact_mod_cast List.length_pos_of_ne_nil hl
  constructor
  · rintro ⟨x, hx, hlt⟩ heq
    have : l.sum = l.length * x := by
      have hrep : l = List.replicate l.length x := List.eq_replicate_iff.2 ⟨rfl, fun y hy => heq y hy x hx⟩
      conv_lhs => rw [hrep]
      simp
    rw [this, mul_comm, mul_div_assoc, div_self hn.ne', mul_one] at hlt
    exact lt_irrefl _ hlt
  · intro h
    by_contra hno
    push Not at hno
    apply h
    set m := l.sum / l.length with hm
    have hsum : (l.map fun x => m - x).sum = 0 := by
      have : ∀ l' : List ℝ, (l'.map fun x => m - x).sum = l'.length * m - l'.sum := by
        intro l'
        induction l' with
        | nil => simp
        | cons a l' ih => simp [ih]; ring
      rw [this, hm]; field_simp; ring
    have hz : ∀ x ∈ l, m - x = 0 := fun x hx =>
      List.all_zero_of_le_zero_le_of_sum_eq_zero (l := l.map fun x => m - x) (by
        intro y hy; obtain ⟨z, hz, rfl⟩ := List.mem_map.1 hy; have := hno z hz; linarith) hsum
        (List.mem_map.2 ⟨x, hx, rfl⟩)
    intro x hx y hy
    have := hz x hx; have := hz y hy; linarith

/-- **C116.** The result is the data from the peak of the strongest section up to, but without, the
peak of the weakest section that is still above the average of the sections. -/
theorem C116_slice (data : List ℝ) (hne : data ≠ [])
    (h0 : ¬ Spec.ChangesAt false data (data.sum / data.length) 0) (secs : List (ℕ × ℕ))
    (hsecs : Spec.SectionsOf data secs) (out : List ℝ) :
    averageRectifiedSections data = .ok out ↔
      ∃ S W i j, Spec.Strongest data secs S ∧ Spec.Weakest data secs W ∧ Spec.IsPeak data S i ∧
        Spec.IsPeak data W j ∧ out = (data.take j).drop i := by
  have hP := sectionPairs_spec data hne h0
  obtain rfl := SectionsOf_unique hsecs hP
  set secs := sectionPairs data with hsd
  have hstr : ∀ e ∈ secs, listMean (slice data e) = Spec.strength data e :=
    fun e he => slice_mean ((hsecs.2 e).1 he)
  rw [averageRectified_eq]
  simp only []
  rw [← hsd, if_neg (by
    rintro ⟨e, he, hnil⟩
    have h1 := slice_length ((hsecs.2 e).1 he)
    have h2 := section_bounds ((hsecs.2 e).1 he)
    rw [hnil] at h1; simp at h1; omega)]
  set thr := listMean (secs.map fun e => listMean (slice data e)) with hthr
  have hthr' : thr = (secs.map (Spec.strength data)).sum / secs.length := by
    rw [hthr]
    unfold listMean
    rw [List.length_map]
    congr 2
    exact List.map_congr_left hstr
  set high := secs.filter (fun e => open Classical in decide (thr < listMean (slice data e))) with hhigh
  have hmem : ∀ e, e ∈ high ↔ Spec.Above data secs e := by
    intro e
    rw [hhigh, List.mem_filter, decide_eq_true_eq]
    unfold Spec.Above
    rw [← hthr']
    constructor
    · rintro ⟨h1, h2⟩; rw [hstr e h1] at h2; exact ⟨h1, h2⟩
    · rintro ⟨h1, h2⟩; rw [hstr e h1]; exact ⟨h1, h2⟩
  have hsorted : high.Pairwise (fun a b => a.1 < b.1) := hsecs.1.filter _
  by_cases hh : high = []
  · rw [if_pos hh]
    constructor
    · intro h; cases h
    · rintro ⟨S, W, i, j, hS, -⟩
      have := (hmem S).2 hS.1
      rw [hh] at this; simp at this
  rw [if_neg hh]
  have hstr' : high.map (fun e => listMean (slice data e)) = high.map (Spec.strength data) :=
    List.map_congr_left fun e he => hstr e ((hmem e).1 he).1
  rw [hstr']
  have hmne : high.map (Spec.strength data) ≠ [] := by simpa using hh
  obtain ⟨hi, himax, hifirst⟩ := argmaxIdx_spec _ hmne
  obtain ⟨hj, hjmin, hjfirst⟩ := argminIdx_spec _ hmne
  set a := argmaxIdx (high.map (Spec.strength data)) with ha
  set b := argminIdx (high.map (Spec.strength data)) with hb
  simp only [List.length_map] at hi hj
  simp only [List.getElem_map] at himax hifirst hjmin hjfirst
  set S := high[a] with hS
  set W := high[b] with hW
  have hSm : S ∈ high := List.getElem_mem _
  have hWm : W ∈ high := List.getElem_mem _
  have hbefore : ∀ (c : ℕ) (hc : c < high.length) (s : ℕ × ℕ), s ∈ high → s.1 < high[c].1 →
      ∃ (k : ℕ) (hk : k < c), high[k]'(by omega) = s := by
    intro c hc s hs hlt
    obtain ⟨k, hk, rfl⟩ := List.mem_iff_getElem.1 hs
    refine ⟨k, ?_, rfl⟩
    by_contra hn
    rcases Nat.lt_or_eq_of_le (not_lt.1 hn) with h | h
    · have := (List.pairwise_iff_getElem.1 hsorted) c k hc hk h; omega
    · subst h; omega
  have hStrong : Spec.Strongest data secs S := by
    have hSA := (hmem S).1 hSm
    refine ⟨hSA, ?_, ?_⟩
    · intro s hs
      by_cases hA : Spec.Above data secs s
      · exact himax _ (List.mem_map.2 ⟨s, (hmem s).2 hA, rfl⟩)
      · have : Spec.strength data s ≤ (secs.map (Spec.strength data)).sum / secs.length := by
          by_contra hc; exact hA ⟨hs, not_le.1 hc⟩
        exact this.trans hSA.2.le
    · intro s hs hlt
      by_cases hA : Spec.Above data secs s
      · obtain ⟨k, hk, rfl⟩ := hbefore a hi s ((hmem s).2 hA) hlt
        exact hifirst k hk
      · have : Spec.strength data s ≤ (secs.map (Spec.strength data)).sum / secs.length := by
          by_contra hc; exact hA ⟨hs, not_le.1 hc⟩
        exact this.trans_lt hSA.2
  have hWeak : Spec.Weakest data secs W := by
    refine ⟨(hmem W).1 hWm, ?_, ?_⟩
    · intro s hA; exact hjmin _ (List.mem_map.2 ⟨s, (hmem s).2 hA, rfl⟩)
    · intro s hA hlt
      obtain ⟨k, hk, rfl⟩ := hbefore b hj s ((hmem s).2 hA) hlt
      exact hjfirst k hk
  have hSsec := (hsecs.2 S).1 hStrong.1.1
  have hWsec := (hsecs.2 W).1 hWeak.1.1
  have hia : (high.map fun e => e.1 + argmaxIdx (slice data e)).getD a 0 = S.1 + argmaxIdx (slice data S) := by
    simp [List.getD, hi, hS]
  have hjb : (high.map fun e => e.1 + argmaxIdx (slice data e)).getD b 0 = W.1 + argmaxIdx (slice data W) := by
    simp [List.getD, hj, hW]
  rw [hia, hjb]
  constructor
  · intro h
    injection h with h
    exact ⟨S, W, _, _, hStrong, hWeak, slice_peak hSsec, slice_peak hWsec, h.symm⟩
  · rintro ⟨S', W', i, j, hS', hW', hi', hj', rfl⟩
    have hkey : ∀ e e' : ℕ × ℕ, e ∈ secs → e' ∈ secs → e.1 = e'.1 → e = e' := by
      intro e e' he he' h
      obtain ⟨k, hk, rfl⟩ := List.mem_iff_getElem.1 he
      obtain ⟨k', hk', rfl⟩ := List.mem_iff_getElem.1 he'
      rcases lt_trichotomy k k' with h1 | h1 | h1
      · have := (List.pairwise_iff_getElem.1 hsecs.1) k k' hk hk' h1; omega
      · subst h1; rfl
      · have := (List.pairwise_iff_getElem.1 hsecs.1) k' k hk' hk h1; omega
    have hSS : S' = S := by
      apply hkey _ _ hS'.1.1 hStrong.1.1
      rcases lt_trichotomy S'.1 S.1 with h1 | h1 | h1
      · exact absurd (hStrong.2.2 S' hS'.1.1 h1) (not_lt.2 (hS'.2.1 S hStrong.1.1))
      · exact h1
      · exact absurd (hS'.2.2 S hStrong.1.1 h1) (not_lt.2 (hStrong.2.1 S' hS'.1.1))
    have hWW : W' = W := by
      apply hkey _ _ hW'.1.1 hWeak.1.1
      rcases lt_trichotomy W'.1 W.1 with h1 | h1 | h1
      · exact absurd (hWeak.2.2 W' hW'.1 h1) (not_lt.2 (hW'.2.1 W hWeak.1))
      · exact h1
      · exact absurd (hW'.2.2 W hWeak.1 h1) (not_lt.2 (hWeak.2.1 W' hW'.1))
    subst hSS hWW
    rw [peak_unique hi' (slice_peak hSsec), peak_unique hj' (slice_peak hWsec)]

/-- **C116.** The sections exist, in the order of time, whenever there are data and the sign does not
change after the very first sample; together they are all the samples. -/
theorem C116_sections (data : List ℝ) (hne : data ≠ [])
    (h0 : ¬ Spec.ChangesAt false data (data.sum / data.length) 0) :
    ∃ secs, Spec.SectionsOf data secs ∧ secs ≠ [] ∧
      ∀ k, k < data.length → ∃ e ∈ secs, e.1 ≤ k ∧ k < e.2 := by
  have hP := sectionPairs_spec data hne h0
  refine ⟨_, hP, by simp [sectionPairs, List.zip_eq_nil_iff], ?_⟩
  intro k hk
  classical
  let C := Spec.ChangesAt false data (data.sum / data.length)
  let A := Nat.findGreatest (fun c => c = 0 ∨ C c) k
  have hA : A = 0 ∨ C A := Nat.findGreatest_spec (P := fun c => c = 0 ∨ C c) (Nat.zero_le k) (Or.inl rfl)
  have hAk : A ≤ k := Nat.findGreatest_le k
  have hex : ∃ c, k < c ∧ (c = data.length ∨ C c) := ⟨_, hk, Or.inl rfl⟩
  let B := Nat.find hex
  have hB := Nat.find_spec hex
  refine ⟨(A, B), (hP.2 _).2 ⟨by show A < B; have := hB.1; omega, hA, hB.2, ?_⟩, hAk, hB.1⟩
  intro c hAc hcB hc
  rcases le_or_gt c k with h | h
  · exact absurd (Or.inr hc) (Nat.findGreatest_is_greatest hAc h)
  · exact Nat.find_min hex hcB ⟨h, Or.inr hc⟩

/-- **C116.** When it raises: no data, a change of sign after the very first sample, or sections that
all have the same average. -/
theorem C116_failures (data : List ℝ) (e : PyErr) :
    averageRectifiedSections data = .error e ↔ e = .valueError ∧
      (data = [] ∨ Spec.ChangesAt false data (data.sum / data.length) 0 ∨
        ∀ s s', Spec.IsSection data s → Spec.IsSection data s' →
          Spec.strength data s = Spec.strength data s') := by
  by_cases hne : data = []
  · subst hne
    have : averageRectifiedSections [] = .error .valueError := by
      rw [averageRectified_eq]
      simp only []
      rw [if_pos]
      exact ⟨(0, 0), by simp [sectionPairs, signChanges], by simp [slice]⟩
    rw [this]
    simp [eq_comm]
  by_cases h0 : Spec.ChangesAt false data (data.sum / data.length) 0
  · have : averageRectifiedSections data = .error .valueError := by
      rw [averageRectified_eq]
      simp only []
      rw [if_pos]
      have hm := (mem_signChanges data (listMean data) 0).2 h0
      have hsort := signChanges_sorted (data.map fun x => x - listMean data)
      obtain ⟨c, l, hl⟩ := List.exists_cons_of_ne_nil (List.ne_nil_of_mem hm)
      have hc : c = 0 := by
        rw [hl] at hm hsort
        rcases List.mem_cons.1 hm with h | h
        · exact h.symm
        · have := (List.pairwise_cons.1 hsort).1 0 h; omega
      refine ⟨(0, 0), ?_, by simp [slice]⟩
      unfold sectionPairs
      simp only []
      rw [hl, hc]
      simp
    rw [this]
    simp [h0, eq_comm]
  obtain ⟨secs, hsecs, hsne, -⟩ := C116_sections data hne h0
  have hab := above_mean_iff (secs.map (Spec.strength data)) (by simpa using hsne)
  rw [List.length_map] at hab
  have hall : (∀ x ∈ secs.map (Spec.strength data), ∀ y ∈ secs.map (Spec.strength data), x = y) ↔
      ∀ s s', Spec.IsSection data s → Spec.IsSection data s' →
          Spec.strength data s = Spec.strength data s' := by
    simp only [List.forall_mem_map, hsecs.2]
    constructor
    · intro h s s' hs hs'; exact h s hs s' hs'
    · intro h s hs s' hs'; exact h s s' hs hs'
  rw [hall] at hab
  simp only [hne, h0, false_or]
  have hP := SectionsOf_unique hsecs (sectionPairs_spec data hne h0)
  have hstr : ∀ e ∈ secs, listMean (slice data e) = Spec.strength data e :=
    fun e he => slice_mean ((hsecs.2 e).1 he)
  rw [averageRectified_eq]
  simp only []
  rw [← hP, if_neg (by
    rintro ⟨e, he, hnil⟩
    have h1 := slice_length ((hsecs.2 e).1 he)
    have h2 := section_bounds ((hsecs.2 e).1 he)
    rw [hnil] at h1; simp at h1; omega)]
  have hthr' : listMean (secs.map fun e => listMean (slice data e)) =
      (secs.map (Spec.strength data)).sum / secs.length := by
    unfold listMean
    rw [List.length_map]
    congr 2
    exact List.map_congr_left hstr
  rw [hthr']
  have hnil : secs.filter (fun e => open Classical in
      decide ((secs.map (Spec.strength data)).sum / secs.length < listMean (slice data e))) = [] ↔
      ∀ s s', Spec.IsSection data s → Spec.IsSection data s' →
          Spec.strength data s = Spec.strength data s' := by
    rw [← not_iff_not, ← hab, List.filter_eq_nil_iff]
    push Not
    constructor
    · rintro ⟨e, he, h⟩
      rw [decide_eq_true_eq, hstr e he] at h
      exact ⟨_, List.mem_map.2 ⟨e, he, rfl⟩, h⟩
    · rintro ⟨x, hx, h⟩
      obtain ⟨e, he, rfl⟩ := List.mem_map.1 hx
      exact ⟨e, he, by rw [decide_eq_true_eq, hstr e he]; exact h⟩
  by_cases hh : ∀ s s', Spec.IsSection data s → Spec.IsSection data s' →
          Spec.strength data s = Spec.strength data s'
  · rw [if_pos (hnil.2 hh)]
    constructor
    · intro h; injection h with h; exact ⟨h.symm, hh⟩
    · rintro ⟨rfl, -⟩; rfl
  · rw [if_neg (fun h => hh (hnil.1 h))]
    constructor
    · intro h; cases h
    · rintro ⟨-, h⟩; exact absurd h hh
/-- Two sections above the average, and a weak one. -/
noncomputable def beating : List ℝ := [8, 8, 8, -6, -6, -6, -6, 0]

theorem beating_mean : beating.sum / beating.length = 0 := by norm_num [beating]

theorem beating_changes (i : ℕ) : Spec.ChangesAt false beating 0 i ↔ i = 2 ∨ i = 6 := by
  unfold Spec.ChangesAt
  constructor
  · rintro ⟨a, b, ha, hb, h, -⟩
    have hi : i + 1 < 8 := (List.getElem?_eq_some_iff.1 hb).1
    have hi' : i < 7 := by omega
    clear hi
    interval_cases i <;> first | omega | skip
    all_goals
      simp only [beating, List.getElem?_cons_succ, List.getElem?_cons_zero, Option.some.injEq] at ha hb
      subst ha hb
      exact absurd rfl h
  · rintro (rfl | rfl)
    · exact ⟨8, -6, rfl, rfl, by simp, by simp⟩
    · exact ⟨-6, 0, rfl, rfl, by simp, by simp⟩

theorem beating_sections : Spec.SectionsOf beating [(0, 2), (2, 6), (6, 8)] := by
  refine ⟨by simp, ?_⟩
  rintro ⟨a, b⟩
  unfold Spec.IsSection
  simp only [beating_mean, beating_changes]
  have hl : beating.length = 8 := rfl
  rw [hl]
  simp only [List.mem_cons, Prod.mk.injEq, List.not_mem_nil, or_false]
  constructor
  · rintro (⟨rfl, rfl⟩ | ⟨rfl, rfl⟩ | ⟨rfl, rfl⟩) <;>
      exact ⟨by omega, by omega, by omega, fun c h1 h2 => by omega⟩
  · rintro ⟨h1, h2, h3, h4⟩
    have h2' := h4 2
    have h6' := h4 6
    omega

/-- non-vacuity of C116: the data from the peak of the first section to the peak of the second. -/
theorem example_beating : averageRectifiedSections beating = .ok [8, 8] := by
  have hl : beating.length = 8 := rfl
  have hdev : ∀ k, Spec.deviation beating k = beating.getD k 0 := by
    intro k; unfold Spec.deviation; rw [beating_mean, sub_zero]
  have s1 : Spec.strength beating (0, 2) = 8 := by
    unfold Spec.strength
    simp only [hdev]
    norm_num [Finset.sum_Ico_eq_sum_range, Finset.sum_range_succ, beating]
  have s2 : Spec.strength beating (2, 6) = 13 / 2 := by
    unfold Spec.strength
    simp only [hdev]
    norm_num [Finset.sum_Ico_eq_sum_range, Finset.sum_range_succ, beating]
  have s3 : Spec.strength beating (6, 8) = 3 := by
    unfold Spec.strength
    simp only [hdev]
    norm_num [Finset.sum_Ico_eq_sum_range, Finset.sum_range_succ, beating]
  have hA : ∀ e, Spec.Above beating [(0, 2), (2, 6), (6, 8)] e ↔ e = (0, 2) ∨ e = (2, 6) := by
    intro e
    unfold Spec.Above
    simp only [List.map_cons, List.map_nil, s1, s2, s3, List.mem_cons, List.not_mem_nil, or_false]
    constructor
    · rintro ⟨rfl | rfl | rfl, h⟩
      · simp
      · simp
      · rw [s3] at h; norm_num at h
    · rintro (rfl | rfl)
      · rw [s1]; norm_num
      · rw [s2]; norm_num
  refine (C116_slice beating (by simp [beating]) ?_ _ beating_sections [8, 8]).2
    ⟨(0, 2), (2, 6), 0, 2, ⟨(hA _).2 (by simp), ?_, ?_⟩, ⟨(hA _).2 (by simp), ?_, ?_⟩, ?_, ?_, rfl⟩
  · rw [beating_mean, beating_changes]; omega
  · intro s hs
    simp only [List.mem_cons, List.not_mem_nil, or_false] at hs
    rcases hs with rfl | rfl | rfl
    · exact le_rfl
    · rw [s1, s2]; norm_num
    · rw [s1, s3]; norm_num
  · intro s _ h; simp at h
  · intro s hs
    rcases (hA s).1 hs with rfl | rfl
    · rw [s1, s2]; norm_num
    · exact le_rfl
  · intro s hs _
    rcases (hA s).1 hs with rfl | rfl
    · rw [s1, s2]; norm_num
    · simp at *
  · refine ⟨by simp, by simp, ?_, by simp⟩
    intro k _ hk
    simp only at hk
    simp only [hdev]
    interval_cases k <;> simp [beating]
  · refine ⟨by simp, by simp, ?_, ?_⟩
    · intro k h1 hk
      simp only at h1 hk
      simp only [hdev]
      interval_cases k <;> norm_num [beating]
    · intro k h1 h2
      simp only at h1; omega

/-- **C116.** When only one section is above the average, nothing is left. -/
theorem C116_may_be_empty (data : List ℝ) (hne : data ≠ [])
    (h0 : ¬ Spec.ChangesAt false data (data.sum / data.length) 0) (secs : List (ℕ × ℕ))
    (hsecs : Spec.SectionsOf data secs) (S : ℕ × ℕ)
    (hS : ∀ s, Spec.Above data secs s ↔ s = S) : averageRectifiedSections data = .ok [] := by
  have hSA := (hS S).2 rfl
  have hP := slice_peak ((hsecs.2 S).1 hSA.1)
  refine (C116_slice data hne h0 secs hsecs []).2 ⟨S, S, _, _, ⟨hSA, ?_, ?_⟩, ⟨hSA, ?_, ?_⟩, hP, hP, ?_⟩
  · intro s hs
    by_cases hA : Spec.Above data secs s
    · rw [(hS s).1 hA]
    · have : Spec.strength data s ≤ (secs.map (Spec.strength data)).sum / secs.length := by
        by_contra hc; exact hA ⟨hs, not_le.1 hc⟩
      exact this.trans hSA.2.le
  · intro s hs hlt
    by_cases hA : Spec.Above data secs s
    · rw [(hS s).1 hA] at hlt; omega
    · have : Spec.strength data s ≤ (secs.map (Spec.strength data)).sum / secs.length := by
        by_contra hc; exact hA ⟨hs, not_le.1 hc⟩
      exact this.trans_lt hSA.2
  · intro s hA; rw [(hS s).1 hA]
  · intro s hA hlt; rw [(hS s).1 hA] at hlt; omega
  · symm
    rw [List.drop_eq_nil_iff]
    simp
end BP
