import Mathlib.Analysis.Matrix.Order
import Mathlib.Analysis.Calculus.LocalExtr.Basic
import Mathlib.Analysis.SpecialFunctions.Sqrt
import Mathlib.Analysis.Calculus.Deriv.Inv
import Verif.Model.PeriodFit
import Verif.Props.Period

set_option linter.unusedSimpArgs false

/-!
# get_period and make_guess: C114, C115
-/

namespace BP

open Real Matrix

/-! ## C115: the first guess -/

/-- The sign of the deviation of the samples from `m` changes after sample `i`; samples within 0.1
of `m` count only when `mask` is false. -/
def Spec.ChangesAt (mask : Bool) (data : List ℝ) (m : ℝ) (i : ℕ) : Prop :=
  ∃ a b, data[i]? = some a ∧ data[i + 1]? = some b ∧ SignType.sign (b - m) ≠ SignType.sign (a - m) ∧
    (mask = true → 0.1 < |a - m| ∧ 0.1 < |b - m|)

/-- The crossings that are kept among `zc`: those more than 20 samples after the one before; the
first one when the last one is more than 20 samples later. -/
def Spec.Kept (zc : List ℕ) (v : ℕ) : Prop :=
  v ∈ zc ∧ (∀ u ∈ zc, u < v → u + 20 < v) ∧ ((∀ u ∈ zc, v ≤ u) → ∃ u ∈ zc, v + 20 < u)

theorem signChanges_sorted (l : List ℝ) : (signChanges l).Pairwise (· < ·) :=
  List.pairwise_lt_range.filter _

theorem getD_map_sub (data : List ℝ) (m : ℝ) (i : ℕ) (hi : i < data.length) :
    (data.map fun x => x - m).getD i 0 = data[i] - m := by
  simp [List.getD, hi]

theorem mem_maskedChanges (mask : Bool) (data : List ℝ) (m : ℝ) (i : ℕ) :
    i ∈ maskedChanges mask (data.map fun x => x - m) ↔ Spec.ChangesAt mask data m i := by
  unfold maskedChanges signChanges Spec.ChangesAt
  simp only [List.mem_filter, List.mem_range, List.length_map, decide_eq_true_eq, Bool.or_eq_true,
    Bool.not_eq_true', Bool.and_eq_true]
  constructor
  · rintro ⟨⟨h1, h2⟩, h3⟩
    have hi : i < data.length := by omega
    have hi1 : i + 1 < data.length := by omega
    rw [getD_map_sub _ _ _ hi, getD_map_sub _ _ _ hi1] at h2 h3
    refine ⟨data[i], data[i + 1], by simp [hi], by simp [hi1], h2, fun hm => ?_⟩
    rcases h3 with h3 | h3
    · rw [hm] at h3; cases h3
    · exact h3
  · rintro ⟨a, b, ha, hb, h2, h3⟩
    obtain ⟨hi, rfl⟩ := List.getElem?_eq_some_iff.1 ha
    obtain ⟨hi1, rfl⟩ := List.getElem?_eq_some_iff.1 hb
    rw [getD_map_sub _ _ _ hi, getD_map_sub _ _ _ hi1]
    refine ⟨⟨by omega, h2⟩, ?_⟩
    cases mask with
    | false => left; rfl
    | true => right; exact h3 rfl

theorem sorted_getElem_lt {zc : List ℕ} (hs : zc.Pairwise (· < ·)) {i j : ℕ} (hj : j < zc.length)
    (hij : i < j) : zc[i]'(by omega) < zc[j] := (List.pairwise_iff_getElem.1 hs) i j (by omega) hj hij

theorem sorted_lt_iff {zc : List ℕ} (hs : zc.Pairwise (· < ·)) {i j : ℕ} (hi : i < zc.length)
    (hj : j < zc.length) : zc[i] < zc[j] ↔ i < j := by
  constructor
  · intro h
    by_contra hn
    rcases Nat.lt_or_eq_of_le (not_lt.1 hn) with h1 | h1
    · exact absurd (sorted_getElem_lt hs hi h1) (by omega)
    · subst h1; omega
  · exact sorted_getElem_lt hs hj

theorem mem_farCrossings {zc : List ℕ} (hs : zc.Pairwise (· < ·)) (v : ℕ) :
    v ∈ farCrossings zc ↔ Spec.Kept zc v := by
  unfold farCrossings Spec.Kept
  have hmem : ∀ u, u ∈ zc ↔ ∃ (i : ℕ) (h : i < zc.length), zc[i] = u := fun u => List.mem_iff_getElem
  simp only [List.mem_map, List.mem_filter, decide_eq_true_eq]
  constructor
  · rintro ⟨⟨w, i⟩, ⟨h1, h2⟩, rfl⟩
    dsimp only at h2 ⊢
    obtain ⟨hi, hw⟩ : ∃ h : i < zc.length, zc[i] = w := by
      have := List.mem_zipIdx_iff_getElem?.1 h1
      exact List.getElem?_eq_some_iff.1 this
    subst hw
    refine ⟨List.getElem_mem _, ?_, ?_⟩
    · intro u hu huv
      obtain ⟨j, hj, rfl⟩ := (hmem u).1 hu
      have hji := (sorted_lt_iff hs hj hi).1 huv
      have hi0 : i ≠ 0 := by omega
      have hp : previousCrossing zc i = zc[i - 1] := by
        unfold previousCrossing
        rw [if_neg hi0]
        simp [List.getD, show i - 1 < zc.length by omega]
      rw [hp] at h2
      have hlt : zc[i - 1] < zc[i] := sorted_getElem_lt hs hi (by omega)
      have hle : zc[j] ≤ zc[i - 1] := by
        rcases Nat.lt_or_eq_of_le (show j ≤ i - 1 by omega) with h | h
        · exact (sorted_getElem_lt hs (by omega) h).le
        · simp [h]
      rw [abs_of_pos (by omega)] at h2
      omega
    · intro hmin
      have hi0 : i = 0 := by
        by_contra h
        have h3 : zc[0] < zc[i] := sorted_getElem_lt hs hi (by omega)
        have := hmin _ (List.getElem_mem (show 0 < zc.length by omega))
        omega
      subst hi0
      have hp : previousCrossing zc 0 = zc[zc.length - 1]'(by omega) := by
        unfold previousCrossing
        simp [List.getD, show zc.length - 1 < zc.length by omega]
      rw [hp] at h2
      refine ⟨_, List.getElem_mem (show zc.length - 1 < zc.length by omega), ?_⟩
      have := hmin _ (List.getElem_mem (show zc.length - 1 < zc.length by omega))
      rw [abs_of_nonpos (by omega)] at h2
      omega
  · rintro ⟨h1, h2, h3⟩
    obtain ⟨i, hi, rfl⟩ := (hmem v).1 h1
    refine ⟨(zc[i], i), ⟨?_, ?_⟩, rfl⟩
    · rw [List.mem_zipIdx_iff_getElem?]; simp [hi]
    · dsimp only
      by_cases hi0 : i = 0
      · subst hi0
        obtain ⟨u, hu, huv⟩ := h3 (by
          intro u hu
          obtain ⟨j, hj, rfl⟩ := (hmem u).1 hu
          rcases Nat.eq_zero_or_pos j with h | h
          · simp [h]
          · exact (sorted_getElem_lt hs hj h).le)
        obtain ⟨j, hj, rfl⟩ := (hmem u).1 hu
        have hp : previousCrossing zc 0 = zc[zc.length - 1]'(by omega) := by
          unfold previousCrossing
          simp [List.getD, show zc.length - 1 < zc.length by omega]
        rw [hp]
        have hle : zc[j] ≤ zc[zc.length - 1] := by
          rcases Nat.lt_or_eq_of_le (show j ≤ zc.length - 1 by omega) with h | h
          · exact (sorted_getElem_lt hs (by omega) h).le
          · simp [h]
        rw [abs_of_nonpos (by omega)]
        omega
      · have hp : previousCrossing zc i = zc[i - 1] := by
          unfold previousCrossing
          rw [if_neg hi0]
          simp [List.getD, show i - 1 < zc.length by omega]
        rw [hp]
        have := h2 _ (List.getElem_mem (show i - 1 < zc.length by omega)) (sorted_getElem_lt hs hi (by omega))
        rw [abs_of_pos (by omega)]
        omega

theorem farCrossings_sorted {zc : List ℕ} (hs : zc.Pairwise (· < ·)) :
    (farCrossings zc).Pairwise (fun a b => a + 20 < b) := by
  have hlt : (farCrossings zc).Pairwise (· < ·) := by
    refine hs.sublist ?_
    have : zc = zc.zipIdx.map Prod.fst := by simp
    conv_rhs => rw [this]
    exact List.Sublist.map _ (List.filter_sublist)
  refine List.Pairwise.imp_of_mem ?_ hlt
  intro a b ha hb hab
  exact ((mem_farCrossings hs b).1 hb).2.1 a ((mem_farCrossings hs a).1 ha).1 hab

theorem npDiff_cons (a b : ℝ) (l : List ℝ) : npDiff (a :: b :: l) = (b - a) :: npDiff (b :: l) := by
  simp [npDiff]

theorem npDiff_length (l : List ℝ) : (npDiff l).length = l.length - 1 := by
  simp [npDiff]

theorem npDiff_sum (a : ℝ) (l : List ℝ) : (npDiff (a :: l)).sum = (a :: l).getLast (by simp) - a := by
  induction l generalizing a with
  | nil => simp [npDiff]
  | cons b l ih =>
    rw [npDiff_cons, List.sum_cons, ih, List.getLast_cons (a := a) (l := b :: l) (by simp)]
    ring

theorem npMax_spec (l : List ℝ) (h : l ≠ []) : npMax l ∈ l ∧ ∀ x ∈ l, x ≤ npMax l := by
  obtain ⟨a, l, rfl⟩ := List.exists_cons_of_ne_nil h
  unfold npMax
  simp only [List.tail_cons, List.headD_cons]
  clear h
  induction l generalizing a with
  | nil => simp
  | cons b l ih =>
    rw [List.foldl_cons]
    obtain ⟨h1, h2⟩ := ih (max a b)
    constructor
    · rcases List.mem_cons.1 h1 with h | h
      · rw [h]
        rcases max_choice a b with h' | h' <;> rw [h'] <;> simp
      · exact List.mem_cons_of_mem _ (List.mem_cons_of_mem _ h)
    · intro x hx
      have hm := h2 (max a b) (by simp)
      rcases List.mem_cons.1 hx with rfl | hx
      · exact (le_max_left _ _).trans hm
      · rcases List.mem_cons.1 hx with rfl | hx
        · exact (le_max_right _ _).trans hm
        · exact h2 x (List.mem_cons_of_mem _ hx)

/-- **C115.** With fewer than eleven samples there is no guess. -/
theorem C115_too_short (mask : Bool) (data : List ℝ) (rate : ℝ) (h : data.length < 11) :
    makeGuess mask data rate = .error .indexError := by
  unfold makeGuess
  rw [if_pos h]

/-- **C115.** From eleven samples on there is one: the offset is the mean; the two amplitudes have
the size of the largest deviation above the mean (half of it for the sine) and the sign of the change
over the first ten samples; the damping ratio is 0.001; the frequency is 4 or that of the kept
crossings `ks`, two of them per period.  In any case it is positive, and below `π / 20` times the
sample rate unless it is 4. -/
theorem C115_guess (mask : Bool) (data : List ℝ) (rate : ℝ) (h : 11 ≤ data.length) (hr : 0 < rate) :
    ∃ (p : Fin 5 → ℝ) (zc ks : List ℕ) (m big a b : ℝ), makeGuess mask data rate = .ok p ∧
      m = data.sum / data.length ∧ p 0 = m ∧
      (∃ x ∈ data, big = x - m) ∧ (∀ x ∈ data, x - m ≤ big) ∧ 0 ≤ big ∧
      data[0]? = some a ∧ data[10]? = some b ∧
      p 2 = (if a < b then big else -big) ∧ p 1 = p 2 / 2 ∧ p 3 = 0.001 ∧
      zc.Pairwise (· < ·) ∧ (∀ i, i ∈ zc ↔ Spec.ChangesAt mask data m i) ∧
      ks.Pairwise (fun a b => a + 20 < b) ∧ (∀ v, v ∈ ks ↔ Spec.Kept zc v) ∧
      (ks.length < 2 → p 4 = 4) ∧
      (∀ (first : ℕ) (mid : List ℕ) (last : ℕ), ks = first :: mid ++ [last] →
        2 * π / p 4 * rate = 2 * ((last - first : ℝ) / (mid.length + 1))) ∧
      0 < p 4 ∧ (p 4 = 4 ∨ p 4 < π * rate / 20) := by
  set m := data.sum / data.length with hm
  set d := data.map fun x => x - m with hd
  have hd0 : d ≠ [] := by
    intro h0
    have : d.length = 0 := by rw [h0]; rfl
    rw [hd, List.length_map] at this; omega
  set zc := maskedChanges mask d with hzc
  have hzs : zc.Pairwise (· < ·) := (signChanges_sorted d).filter _
  set ks := farCrossings zc with hks
  have hkp := farCrossings_sorted hzs
  obtain ⟨hb1, hb2⟩ := npMax_spec d hd0
  have hbig0 : 0 ≤ npMax d := by
    by_contra hneg
    push Not at hneg
    have hlt : ∀ x ∈ data, x < m := by
      intro x hx
      have := hb2 (x - m) (List.mem_map.2 ⟨x, hx, rfl⟩)
      linarith
    have hn : (0 : ℝ) < data.length := by exact_mod_cast (by omega : 0 < data.length)
    have hsum : data.sum < data.length * m := by
      have key : ∀ l : List ℝ, l ≠ [] → (∀ x ∈ l, x < m) → l.sum < l.length * m := by
        intro l
        induction l with
        | nil => intro h; exact absurd rfl h
        | cons x l ih =>
          intro _ hx
          by_cases hl : l = []
          · subst hl; simpa using hx x (by simp)
          · have := ih hl fun y hy => hx y (List.mem_cons_of_mem _ hy)
            have := hx x (by simp)
            simp only [List.sum_cons, List.length_cons, Nat.cast_add, Nat.cast_one]
            linarith
      exact key data (by rintro rfl; simp at h) hlt
    rw [hm] at hsum
    field_simp at hsum
    exact lt_irrefl _ hsum
  have hbigmem : ∃ x ∈ data, npMax d = x - m := by
    obtain ⟨x, hx, hx2⟩ := List.mem_map.1 hb1
    exact ⟨x, hx, hx2.symm⟩
  set zero := ks.map fun n : ℕ => (n : ℝ) with hzero
  have hdl : (npDiff zero).length = ks.length - 1 := by rw [npDiff_length, hzero, List.length_map]
  set p4 : ℝ := open Classical in
    if npDiff zero = [] then 4 else (2 * listMean (npDiff zero) / rate / 2 / π)⁻¹ with hp4
  have hshort : ks.length < 2 → p4 = 4 := by
    intro hlt
    rw [hp4, if_pos]
    exact List.eq_nil_of_length_eq_zero (by omega)
  have hform : ∀ (first : ℕ) (mid : List ℕ) (last : ℕ), ks = first :: mid ++ [last] →
      listMean (npDiff zero) = (last - first : ℝ) / (mid.length + 1) ∧
      20 < (last - first : ℝ) / (mid.length + 1) ∧
      p4 = (2 * listMean (npDiff zero) / rate / 2 / π)⁻¹ := by
    intro first mid last hk
    have hlen : ks.length = mid.length + 2 := by rw [hk]; simp
    refine ⟨?_, ?_, ?_⟩
    · unfold listMean
      rw [hdl, hlen]
      have : zero = (first : ℝ) :: (mid ++ [last]).map fun n : ℕ => (n : ℝ) := by
        rw [hzero, hk]; simp
      rw [this, npDiff_sum]
      simp
    · rw [lt_div_iff₀ (by positivity)]
      have key : ∀ (l : List ℕ) (a : ℕ), (a :: l).Pairwise (fun a b => a + 20 < b) → l ≠ [] →
          20 * (l.length : ℝ) < ((a :: l).getLast (by simp) : ℝ) - a := by
        intro l
        induction l with
        | nil => intro a _ h; exact absurd rfl h
        | cons b l ih =>
          intro a hp _
          rw [List.getLast_cons (by simp)]
          have hab : a + 20 < b := (List.pairwise_cons.1 hp).1 b (by simp)
          have hab' : (a : ℝ) + 20 < b := by exact_mod_cast hab
          by_cases hl : l = []
          · subst hl; simp; linarith
          · have := ih b (List.pairwise_cons.1 hp).2 hl
            simp only [List.length_cons, Nat.cast_add, Nat.cast_one]
            linarith
      have := key (mid ++ [last]) first (by rw [← List.cons_append, ← hk]; exact hkp) (by simp)
      simp at this
      linarith
    · rw [hp4, if_neg]
      intro h0
      have : (npDiff zero).length = 0 := by rw [h0]; rfl
      omega
  have hcases : ks.length < 2 ∨ ∃ first mid last, ks = first :: mid ++ [last] := by
    rcases lt_or_ge ks.length 2 with h2 | h2
    · left; exact h2
    · right
      obtain ⟨a, l, hk⟩ := List.exists_cons_of_ne_nil (l := ks) (by intro h0; rw [h0] at h2; simp at h2)
      have hl : l ≠ [] := by rintro rfl; rw [hk] at h2; simp at h2
      exact ⟨a, l.dropLast, l.getLast hl, by rw [List.cons_append, List.dropLast_append_getLast, hk]⟩
  have hd0' : d.getD 0 0 = data[0] - m := getD_map_sub _ _ _ (by omega)
  have hd10 : d.getD 10 0 = data[10] - m := getD_map_sub _ _ _ (by omega)
  refine ⟨![m, (if data[0] < data[10] then npMax d else -npMax d) / 2,
    if data[0] < data[10] then npMax d else -npMax d, 0.001, p4], zc, ks, m, npMax d, data[0], data[10],
    ?_, rfl, rfl, hbigmem, ?_, hbig0, by simp, by simp, rfl, rfl, rfl, hzs, ?_, hkp, mem_farCrossings hzs,
    hshort, ?_, ?_, ?_⟩
  · unfold makeGuess
    rw [if_neg (by omega)]
    simp only []
    have hm' : listMean data = m := rfl
    rw [hm', ← hd, hd0', hd10, ← hzc, ← hks, ← hzero]
    have : (data[0] - m < data[10] - m) ↔ data[0] < data[10] := by
      constructor <;> intro h <;> linarith
    simp only [this]
    congr 1
    ext k
    fin_cases k <;> simp only [Fin.zero_eta, Fin.mk_one, Fin.reduceFinMk, Matrix.cons_val]
    · split <;> ring
    · split <;> ring
    · rw [hp4]
  · intro x hx; exact hb2 _ (List.mem_map.2 ⟨x, hx, rfl⟩)
  · exact mem_maskedChanges mask data m
  · intro first mid last hk
    obtain ⟨h1, h2, h3⟩ := hform first mid last hk
    show 2 * π / p4 * rate = _
    rw [h3, h1]
    have hq : (0 : ℝ) < (last - first : ℝ) / (mid.length + 1) := by linarith
    set q := (last - first : ℝ) / (mid.length + 1)
    have := Real.pi_pos
    field_simp
  · show 0 < p4
    rcases hcases with h2 | ⟨first, mid, last, hk⟩
    · rw [hshort h2]; norm_num
    · obtain ⟨h1, h2, h3⟩ := hform first mid last hk
      rw [h3, h1]
      have hq : (0 : ℝ) < (last - first : ℝ) / (mid.length + 1) := by linarith
      have := Real.pi_pos
      positivity
  · show p4 = 4 ∨ p4 < _
    rcases hcases with h2 | ⟨first, mid, last, hk⟩
    · left; exact hshort h2
    · right
      obtain ⟨h1, h2, h3⟩ := hform first mid last hk
      rw [h3, h1]
      set q := (last - first : ℝ) / (mid.length + 1)
      have hq : (0 : ℝ) < q := by linarith
      have := Real.pi_pos
      rw [show (2 * q / rate / 2 / π)⁻¹ = π * rate / q by field_simp]
      apply div_lt_div_of_pos_left (by positivity) (by norm_num) h2

/-- A square wave of period 60 samples. -/
noncomputable def squareWave : List ℝ :=
  List.replicate 30 1 ++ (List.replicate 30 (-1) ++ (List.replicate 30 1 ++ List.replicate 30 (-1)))

theorem squareWave_get (i : ℕ) : squareWave[i]? =
    if i < 30 then some 1 else if i < 60 then some (-1) else if i < 90 then some 1
    else if i < 120 then some (-1) else none := by
  unfold squareWave
  simp only [List.getElem?_append, List.length_replicate, List.getElem?_replicate]
  split_ifs <;> first | rfl | omega

theorem squareWave_changes (i : ℕ) : Spec.ChangesAt false squareWave 0 i ↔ i = 29 ∨ i = 59 ∨ i = 89 := by
  unfold Spec.ChangesAt
  simp only [squareWave_get]
  constructor
  · rintro ⟨a, b, ha, hb, h, -⟩
    split_ifs at ha hb <;> first | omega | skip
    all_goals (injection ha with ha; injection hb with hb; subst ha; subst hb; first | omega | exact absurd rfl h)
  · rintro (rfl | rfl | rfl)
    · exact ⟨1, -1, by norm_num, by norm_num, by simp, by simp⟩
    · exact ⟨-1, 1, by norm_num, by norm_num, by simp, by simp⟩
    · exact ⟨1, -1, by norm_num, by norm_num, by simp, by simp⟩

/-- non-vacuity of C115: for 120 samples of a square wave three crossings are kept, and the guess
is its period of 60 samples. -/
theorem example_square_wave : ∃ p, makeGuess false squareWave 100 = .ok p ∧ 2 * π / p 4 * 100 = 60 := by
  have hlen : squareWave.length = 120 := by simp [squareWave]
  have hmean : squareWave.sum / squareWave.length = 0 := by
    rw [hlen]; simp [squareWave]
  obtain ⟨p, zc, ks, m, big, a, b, h1, h2, -, -, -, -, -, -, -, -, -, h3, h4, h5, h6, -, h7, -⟩ :=
    C115_guess false squareWave 100 (by rw [hlen]; norm_num) (by norm_num)
  rw [hmean] at h2
  subst h2
  have hz : ∀ i, i ∈ zc ↔ i = 29 ∨ i = 59 ∨ i = 89 := fun i => (h4 i).trans (squareWave_changes i)
  have hk : ∀ v, v ∈ ks ↔ v = 29 ∨ v = 59 ∨ v = 89 := by
    intro v
    rw [h6]
    unfold Spec.Kept
    simp only [hz]
    constructor
    · exact fun h => h.1
    · intro h
      refine ⟨h, ?_, ?_⟩
      · intro u hu; omega
      · intro hm
        have := hm 29 (Or.inl rfl)
        exact ⟨89, by simp, by omega⟩
  have hks : ks = [29, 59, 89] := by
    have hs : ks.Pairwise (· < ·) := h5.imp (by intro a b h; omega)
    have hs2 : [29, 59, 89].Pairwise (· < ·) := by decide
    refine List.Perm.eq_of_pairwise (le := (· < ·)) ?_ hs hs2 ?_
    · intro a b _ _ h h'; omega
    · rw [List.perm_ext_iff_of_nodup (hs.imp (by intro a b h; omega)) (by decide)]
      intro v; rw [hk]; simp
  refine ⟨p, h1, ?_⟩
  have := h7 29 [59] 89 (by rw [hks]; rfl)
  rw [this]; norm_num

/-! ## C114: the period and its standard deviation -/

/-- A decaying oscillation with offset `q 0`, amplitudes `q 1` and `q 2`, damping ratio `q 3` and
natural frequency `q 4`. -/
noncomputable def Spec.decaying (q : Fin 5 → ℝ) (t : ℝ) : ℝ :=
  q 0 + exp (-(q 3 * q 4 * t)) *
    (q 1 * sin (q 4 * √(1 - q 3 ^ 2) * t) + q 2 * cos (q 4 * √(1 - q 3 ^ 2) * t))

/-- How much the oscillation at time `t` changes with parameter `k`. -/
noncomputable def Spec.sensitivity (p : Fin 5 → ℝ) (t : ℝ) (k : Fin 5) : ℝ :=
  deriv (fun x => Spec.decaying (Function.update p k x) t) (p k)

/-- The sum of the squared differences between an oscillation and the samples. -/
noncomputable def Spec.misfit (ts ys : List ℝ) (q : Fin 5 → ℝ) : ℝ :=
  ((ts.zip ys).map fun s => (Spec.decaying q s.1 - s.2) ^ 2).sum

/-- The matrix of the normal equations of the linearised fit. -/
noncomputable def Spec.normalMatrix (ts : List ℝ) (p : Fin 5 → ℝ) : Matrix (Fin 5) (Fin 5) ℝ :=
  Matrix.of fun k l => (ts.map fun t => Spec.sensitivity p t k * Spec.sensitivity p t l).sum

theorem decaying_eq (q : Fin 5 → ℝ) (t : ℝ) : oscillation q t = Spec.decaying q t := by
  unfold oscillation fitfunc Spec.decaying
  simp only [neg_mul]

theorem sensitivity_eq (p : Fin 5 → ℝ) (t : ℝ) (k : Fin 5) (hz : |p 3| < 1) :
    Spec.sensitivity p t k = jacFitfunc (p 1) (p 2) (p 3) (p 4) t k := by
  obtain ⟨h0, h1, h2, h3, h4⟩ := C50_jacobian (p 0) (p 1) (p 2) (p 3) (p 4) t hz
  unfold Spec.sensitivity
  simp only [← decaying_eq, oscillation]
  fin_cases k
  · simpa [Function.update] using h0.deriv
  · simpa [Function.update] using h1.deriv
  · simpa [Function.update] using h2.deriv
  · simpa [Function.update] using h3.deriv
  · simpa [Function.update] using h4.deriv

/-- At a local minimum of a sum of squares, the residuals are orthogonal to every direction in which
they change linearly. -/
theorem orthogonal_of_min {n : ℕ} (f : (Fin 5 → ℝ) → Fin n → ℝ) (p : Fin 5 → ℝ) (k : Fin 5)
    (c : Fin n → ℝ) (hlin : ∀ s i, f (Function.update p k (p k + s)) i = f p i + s * c i)
    (hmin : IsLocalMin (fun q => ∑ i, f q i ^ 2) p) : ∑ i, c i * f p i = 0 := by
  have hcont : Continuous fun s : ℝ => Function.update p k (p k + s) :=
    continuous_const.update k (by fun_prop)
  have hm : IsLocalMin (fun s : ℝ => ∑ i, f (Function.update p k (p k + s)) i ^ 2) 0 := by
    have h0 : Function.update p k (p k + 0) = p := by simp
    have ht : Filter.Tendsto (fun s : ℝ => Function.update p k (p k + s)) (nhds 0) (nhds p) := by
      have := hcont.tendsto 0
      rwa [h0] at this
    have := ht.eventually hmin
    show ∀ᶠ s in nhds (0 : ℝ), _
    filter_upwards [this] with s hs
    rw [h0]
    exact hs
  simp only [hlin] at hm
  have hd : HasDerivAt (fun s : ℝ => ∑ i, (f p i + s * c i) ^ 2)
      (∑ i, 2 * (f p i + 0 * c i) ^ (2 - 1) * (1 * c i)) 0 := by
    apply HasDerivAt.fun_sum
    intro i _
    exact (((hasDerivAt_id (0 : ℝ)).mul_const (c i)).const_add (f p i)).pow 2
  have := hm.hasDerivAt_eq_zero hd
  have h2 : ∑ i, 2 * (f p i + 0 * c i) ^ (2 - 1) * (1 * c i) = 2 * ∑ i, c i * f p i := by
    rw [Finset.mul_sum]
    refine Finset.sum_congr rfl fun i _ => ?_
    ring
  rw [h2] at this
  linarith

theorem fitPeriod_eq (z w : ℝ) : fitPeriod z w = 2 * π / (w * √(1 - z ^ 2)) := by
  unfold fitPeriod
  simp only []
  rw [one_div_div, div_div_eq_mul_div, mul_comm w]
  ring_nf

theorem deriv_fitPeriod_wo (z w : ℝ) (hz : |z| < 1) (hw : 0 < w) :
    deriv (fun w => fitPeriod z w) w = -(2 * π / (w ^ 2 * √(1 - z ^ 2))) := by
  have hpos : 0 < 1 - z ^ 2 := by
    have := (sq_lt_one_iff_abs_lt_one z).2 hz; linarith
  have hs : 0 < √(1 - z ^ 2) := Real.sqrt_pos.2 hpos
  simp only [fitPeriod_eq]
  have : HasDerivAt (fun w : ℝ => 2 * π / (w * √(1 - z ^ 2)))
      ((0 * (w * √(1 - z ^ 2)) - 2 * π * (1 * √(1 - z ^ 2))) / (w * √(1 - z ^ 2)) ^ 2) w :=
    (hasDerivAt_const w (2 * π)).div ((hasDerivAt_id w).mul_const _) (by positivity)
  rw [this.deriv]
  field_simp
  ring

theorem deriv_fitPeriod_zeta (z w : ℝ) (hz : |z| < 1) (hw : 0 < w) :
    deriv (fun z => fitPeriod z w) z = 2 * π * z / (w * √(1 - z ^ 2) ^ 3) := by
  have hpos : 0 < 1 - z ^ 2 := by
    have := (sq_lt_one_iff_abs_lt_one z).2 hz; linarith
  have hs : 0 < √(1 - z ^ 2) := Real.sqrt_pos.2 hpos
  simp only [fitPeriod_eq]
  have h1 : HasDerivAt (fun z : ℝ => 1 - z ^ 2) (-(2 * z)) z := by
    have := ((hasDerivAt_id z).pow 2).const_sub 1
    exact this.congr_deriv (by simp)
  have h2 := (h1.sqrt hpos.ne').const_mul w
  have := (hasDerivAt_const z (2 * π)).div h2 (by positivity)
  refine this.deriv.trans ?_
  field_simp
  ring

theorem periodDeviation_sq (z w a b : ℝ) (hz : |z| < 1) (hw : 0 < w) :
    periodDeviation z w a b ^ 2 =
      (2 * π / (w ^ 2 * √(1 - z ^ 2))) ^ 2 * b ^ 2 + (2 * π * z / (w * √(1 - z ^ 2) ^ 3)) ^ 2 * a ^ 2 := by
  unfold periodDeviation
  rw [deriv_fitPeriod_wo z w hz hw, deriv_fitPeriod_zeta z w hz hw, Real.sq_sqrt (by positivity)]
  ring

theorem zip_sum (ts ys : List ℝ) (h : ts.length = ys.length) (f : ℝ → ℝ → ℝ) :
    ((ts.zip ys).map fun s => f s.1 s.2).sum =
      ∑ i : Fin ys.length, f (ts.getD i 0) (ys.getD i 0) := by
  induction ts generalizing ys with
  | nil => cases ys with
    | nil => simp
    | cons => simp at h
  | cons a ts ih => cases ys with
    | nil => simp at h
    | cons b ys =>
      simp only [List.length_cons, Nat.add_right_cancel_iff] at h
      rw [List.zip_cons_cons, List.map_cons, List.sum_cons, ih ys h]
      simp only [List.length_cons]
      rw [Fin.sum_univ_succ]
      simp

theorem list_sum_fin (ts : List ℝ) (n : ℕ) (h : ts.length = n) (f : ℝ → ℝ) :
    (ts.map f).sum = ∑ i : Fin n, f (ts.getD i 0) := by
  subst h
  induction ts with
  | nil => simp
  | cons a ts ih =>
    rw [List.map_cons, List.sum_cons, ih]
    simp only [List.length_cons]
    rw [Fin.sum_univ_succ]
    simp

theorem normalMatrix_eq (ts : List ℝ) (n : ℕ) (h : ts.length = n) (p : Fin 5 → ℝ) (hz : |p 3| < 1) :
    Spec.normalMatrix ts p = (fitJacobian p fun i : Fin n => ts.getD i 0)ᵀ *
      fitJacobian p fun i : Fin n => ts.getD i 0 := by
  ext k l
  unfold Spec.normalMatrix fitJacobian
  simp only [sensitivity_eq p _ _ hz, Matrix.mul_apply, Matrix.transpose_apply, Matrix.of_apply]
  exact list_sum_fin ts n h _

/-- What `fittedPeriod` gives at a local minimum. -/
theorem fitted_spec (ts ys : List ℝ) (hlen : ts.length = ys.length) (h5 : 5 < ys.length) (p : Fin 5 → ℝ)
    (hmin : IsLocalMin (Spec.misfit ts ys) p) (hz : |p 3| < 1) (hw : 0 < p 4)
    (U : Matrix (Fin 5) (Fin 5) ℝ) (hU : U * Spec.normalMatrix ts p = 1) :
    ∃ s, fittedPeriod p (fun i : Fin ys.length => ts.getD i 0) (fun i : Fin ys.length => ys.getD i 0) =
        .ok (2 * π / (p 4 * √(1 - p 3 ^ 2)), some s) ∧ 0 ≤ s ∧
      s ^ 2 = Spec.misfit ts ys p / (ys.length - 5) *
        ((2 * π / (p 4 ^ 2 * √(1 - p 3 ^ 2))) ^ 2 * U 4 4 +
          (2 * π * p 3 / (p 4 * √(1 - p 3 ^ 2) ^ 3)) ^ 2 * U 3 3) ∧
      0 < U 3 3 ∧ 0 < U 4 4 := by
  set t : Fin ys.length → ℝ := fun i => ts.getD i 0 with ht
  set y : Fin ys.length → ℝ := fun i => ys.getD i 0 with hy
  rw [normalMatrix_eq ts _ hlen p hz, ← ht] at hU
  set J := fitJacobian p t with hJ
  have hmis : ∀ q, Spec.misfit ts ys q = ∑ i, (oscillation q (t i) - y i) ^ 2 := by
    intro q
    unfold Spec.misfit
    rw [zip_sum ts ys hlen fun a b => (Spec.decaying q a - b) ^ 2]
    simp only [decaying_eq, ht, hy]
  have hmin' : IsLocalMin (fun q => ∑ i, (oscillation q (t i) - y i) ^ 2) p := by
    have : Spec.misfit ts ys = fun q => ∑ i, (oscillation q (t i) - y i) ^ 2 := funext hmis
    rwa [this] at hmin
  have horth : ∀ k : Fin 5, k.val < 3 → ∑ i, jacFitfunc (p 1) (p 2) (p 3) (p 4) (t i) k *
      (fitfunc (p 0) (p 1) (p 2) (p 3) (p 4) (t i) - y i) = 0 := by
    intro k hk
    refine orthogonal_of_min (fun q i => oscillation q (t i) - y i) p k _ ?_ hmin'
    intro s i
    unfold oscillation fitfunc jacFitfunc
    fin_cases k
    · simp [Function.update]; ring
    · simp [Function.update]; ring_nf
    · simp [Function.update]; ring_nf
    · simp at hk
    · simp at hk
  obtain ⟨hsse, -, -⟩ := C52_at_least_squares_fit y t (p 0) (p 1) (p 2) (p 3) (p 4) horth
  have hsse' : (fitGoodness y fun i => oscillation p (t i)).2.1 = Spec.misfit ts ys p := by
    rw [hmis]
    refine hsse.trans (Finset.sum_congr rfl fun i _ => ?_)
    unfold oscillation; ring
  have hnn : 0 ≤ Spec.misfit ts ys p := by
    rw [hmis]; exact Finset.sum_nonneg fun i _ => sq_nonneg _
  have hdet : (Jᵀ * J).det ≠ 0 := by
    intro h0
    have := congrArg Matrix.det hU
    rw [Matrix.det_mul, h0] at this
    simp at this
  have hinv : (Jᵀ * J)⁻¹ = U := Matrix.inv_eq_left_inv hU
  have hpd : (Jᵀ * J).PosDef := by
    have hps : (Jᵀ * J).PosSemidef := by
      have := Matrix.posSemidef_conjTranspose_mul_self J
      simpa using this
    exact hps.posDef_iff_isUnit.2 ((Matrix.isUnit_iff_isUnit_det _).2 (isUnit_iff_ne_zero.2 hdet))
  have hUpd : U.PosDef := by rw [← hinv]; exact hpd.inv
  have hU3 : 0 < U 3 3 := hUpd.diag_pos
  have hU4 : 0 < U 4 4 := hUpd.diag_pos
  have hn5 : (0 : ℝ) < ys.length - 5 := by
    have : (5 : ℝ) < ys.length := by exact_mod_cast h5
    linarith
  have hq : 0 ≤ Spec.misfit ts ys p / (ys.length - 5) := div_nonneg hnn hn5.le
  refine ⟨periodDeviation (p 3) (p 4)
    (√(√(Spec.misfit ts ys p / (ys.length - 5)) ^ 2 * U 3 3))
    (√(√(Spec.misfit ts ys p / (ys.length - 5)) ^ 2 * U 4 4)), ?_, ?_, ?_, hU3, hU4⟩
  · unfold fittedPeriod
    simp only []
    rw [hsse', ← hJ, if_neg hdet, if_neg (not_lt.2 hnn), fitPeriod_eq]
    unfold fitCovariance
    rw [← hJ, hinv]
  · unfold periodDeviation; exact Real.sqrt_nonneg _
  · rw [periodDeviation_sq _ _ _ _ hz hw, Real.sq_sqrt hq, Real.sq_sqrt (by positivity),
      Real.sq_sqrt (by positivity)]
    ring
/-- The times `ts` of the samples and the rate `r` for the argument of `get_period`: an integer rate,
or two or more times, whose average rate is cut to an integer. -/
def Spec.Sampling (data : List ℝ) (arg : RateOrTime) (ts : List ℝ) (r : ℤ) : Prop :=
  match arg with
  | .int n => n ≠ 0 ∧ r = n ∧ ts = (List.range data.length).map fun i : ℕ => (i : ℝ) / n
  | .times l => ts = l ∧ ∃ (first : ℝ) (mid : List ℝ) (last : ℝ), l = first :: mid ++ [last] ∧
      let q := (mid.length + 1) / (last - first)
      (0 ≤ q → r = ⌊q⌋) ∧ (q < 0 → r = ⌈q⌉)
  | .number _ => False

/-- The period of the oscillation with the parameters `q`. -/
noncomputable def Spec.periodOf (q : Fin 5 → ℝ) : ℝ := 2 * π / (q 4 * √(1 - q 3 ^ 2))

/-- How much the period changes with parameter `k`. -/
noncomputable def Spec.periodGradient (p : Fin 5 → ℝ) (k : Fin 5) : ℝ :=
  deriv (fun x => Spec.periodOf (Function.update p k x)) (p k)

theorem sampleTimes_spec (data : List ℝ) (h : 2 ≤ data.length) (arg : RateOrTime) (ts : List ℝ) (r : ℤ)
    (hs : Spec.Sampling data arg ts r) : sampleTimes data arg = .ok (ts, (r : ℝ)) := by
  cases arg with
  | int n =>
    obtain ⟨h0, rfl, rfl⟩ := hs
    unfold sampleTimes
    dsimp only
    rw [if_neg h0]
    simp only [C79_sample_times _ _ h]
  | times l =>
    obtain ⟨rfl, first, mid, last, hl, hq⟩ := hs
    have hlen : (npDiff ts).length = mid.length + 1 := by rw [npDiff_length, hl]; simp
    have hne : npDiff ts ≠ [] := by intro h0; rw [h0] at hlen; simp at hlen
    have hmean : 1 / listMean (npDiff ts) = (mid.length + 1) / (last - first) := by
      unfold listMean
      rw [hlen, hl, List.cons_append, npDiff_sum]
      simp
    unfold sampleTimes
    dsimp only
    rw [if_neg hne, hmean]
    unfold pyTrunc
    by_cases h0 : (0 : ℝ) ≤ (mid.length + 1) / (last - first)
    · rw [if_pos h0, hq.1 h0]
    · rw [if_neg h0, hq.2 (not_le.1 h0)]
  | number x => exact hs.elim

/-- **C114.** With eleven or more samples, where `leastsq` finds a local minimum `p` of the sum of the
squared differences: the period is that of the oscillation with the parameters `p`, and the square of
its standard deviation is the variance of the residuals (with five degrees of freedom less than
samples) times the diagonal part of the first-order propagation through the inverse `U` of the
normal matrix.  The deviation is zero only if every sample is on the oscillation. -/
theorem C114_period (mask : Bool) (leastsq : List (ℝ × ℝ) → (Fin 5 → ℝ) → Fin 5 → ℝ) (data ts : List ℝ)
    (arg : RateOrTime) (r : ℤ) (h11 : 11 ≤ data.length) (hs : Spec.Sampling data arg ts r)
    (hlen : ts.length = data.length) :
    ∃ guess p, makeGuess mask data r = .ok guess ∧ p = leastsq (ts.zip data) guess ∧
      (IsLocalMin (Spec.misfit ts data) p → |p 3| < 1 → 0 < p 4 →
        ∀ U, U * Spec.normalMatrix ts p = 1 →
        ∃ s, getPeriod mask leastsq data arg = .ok (Spec.periodOf p, some s) ∧ 0 ≤ s ∧
          s ^ 2 = Spec.misfit ts data p / (data.length - 5) *
            (Spec.periodGradient p 3 ^ 2 * U 3 3 + Spec.periodGradient p 4 ^ 2 * U 4 4) ∧
          (s = 0 ↔ ∀ e ∈ ts.zip data, e.2 = Spec.decaying p e.1)) := by
  have hsT := sampleTimes_spec data (by omega) arg ts r hs
  have hg : ∃ guess, makeGuess mask data r = .ok guess := by
    unfold makeGuess
    rw [if_neg (by omega)]
    exact ⟨_, rfl⟩
  obtain ⟨guess, hg⟩ := hg
  refine ⟨guess, _, hg, rfl, ?_⟩
  set p := leastsq (ts.zip data) guess with hp
  intro hmin hz hw U hU
  obtain ⟨s, h1, h2, h3, hU3, hU4⟩ := fitted_spec ts data hlen (by omega) p hmin hz hw U hU
  have hpos : 0 < 1 - p 3 ^ 2 := by
    have := (sq_lt_one_iff_abs_lt_one (p 3)).2 hz; linarith
  have hsq : 0 < √(1 - p 3 ^ 2) := Real.sqrt_pos.2 hpos
  have hg3 : Spec.periodGradient p 3 = 2 * π * p 3 / (p 4 * √(1 - p 3 ^ 2) ^ 3) := by
    rw [← deriv_fitPeriod_zeta _ _ hz hw]
    unfold Spec.periodGradient Spec.periodOf
    simp [Function.update, fitPeriod_eq]
  have hg4 : Spec.periodGradient p 4 = -(2 * π / (p 4 ^ 2 * √(1 - p 3 ^ 2))) := by
    rw [← deriv_fitPeriod_wo _ _ hz hw]
    unfold Spec.periodGradient Spec.periodOf
    simp [Function.update, fitPeriod_eq]
  have hn5 : (0 : ℝ) < data.length - 5 := by
    have : (11 : ℝ) ≤ data.length := by exact_mod_cast h11
    linarith
  refine ⟨s, ?_, h2, ?_, ?_⟩
  · unfold getPeriod
    rw [hsT]
    simp only []
    rw [hg]
    simp only []
    rw [if_neg (by simpa using hlen)]
    exact h1
  · rw [h3, hg3, hg4]; ring
  · have hfac : 0 < (2 * π / (p 4 ^ 2 * √(1 - p 3 ^ 2))) ^ 2 * U 4 4 +
        (2 * π * p 3 / (p 4 * √(1 - p 3 ^ 2) ^ 3)) ^ 2 * U 3 3 := by
      have := Real.pi_pos
      positivity
    have hiff : s = 0 ↔ Spec.misfit ts data p = 0 := by
      rw [← sq_eq_zero_iff, h3, mul_eq_zero, div_eq_zero_iff]
      constructor
      · rintro ((h | h) | h)
        · exact h
        · exact absurd h hn5.ne'
        · exact absurd h hfac.ne'
      · intro h; exact Or.inl (Or.inl h)
    rw [hiff]
    unfold Spec.misfit
    constructor
    · intro h e he
      have := (List.all_zero_of_le_zero_le_of_sum_eq_zero (l := (ts.zip data).map fun s =>
        (Spec.decaying p s.1 - s.2) ^ 2) (by
          intro x hx; obtain ⟨e, -, rfl⟩ := List.mem_map.1 hx; positivity) h)
        (List.mem_map.2 ⟨e, he, rfl⟩)
      have := pow_eq_zero_iff (two_ne_zero) |>.1 this
      linarith
    · intro h
      refine List.sum_eq_zero ?_
      intro x hx
      obtain ⟨e, he, rfl⟩ := List.mem_map.1 hx
      rw [h e he]; ring

/-- **C114.** The full first-order propagation has one more term: the covariance of damping ratio and
natural frequency, which the two numbers with independent uncertainties do not carry. -/
theorem C114_correlation_dropped (p : Fin 5 → ℝ) (U : Matrix (Fin 5) (Fin 5) ℝ) (hU : Uᵀ = U) :
    let g := Spec.periodGradient p
    g ⬝ᵥ (U *ᵥ g) = g 3 ^ 2 * U 3 3 + g 4 ^ 2 * U 4 4 + 2 * g 3 * g 4 * U 3 4 := by
  intro g
  have h0 : g 0 = 0 := by simp [g, Spec.periodGradient, Spec.periodOf, Function.update]
  have h1 : g 1 = 0 := by simp [g, Spec.periodGradient, Spec.periodOf, Function.update]
  have h2 : g 2 = 0 := by simp [g, Spec.periodGradient, Spec.periodOf, Function.update]
  have h43 : U 4 3 = U 3 4 := congrFun (congrFun hU 3) 4
  simp only [dotProduct, Matrix.mulVec, Fin.sum_univ_five, h0, h1, h2, h43]
  ring

/-- **C114.** When `get_period` raises: a rate that is not a Python integer, a rate of zero, fewer
than two times, fewer than eleven samples, times and samples of different number, and a singular
normal matrix. -/
theorem C114_failures (mask : Bool) (leastsq : List (ℝ × ℝ) → (Fin 5 → ℝ) → Fin 5 → ℝ) (data : List ℝ) :
    (∀ x, getPeriod mask leastsq data (.number x) = .error .valueError) ∧
    getPeriod mask leastsq data (.int 0) = .error .zeroDivision ∧
    (∀ ts, ts.length < 2 → getPeriod mask leastsq data (.times ts) = .error .valueError) ∧
    (data.length < 11 → ∀ n, n ≠ 0 → getPeriod mask leastsq data (.int n) = .error .indexError) ∧
    (data.length < 11 → ∀ ts, 2 ≤ ts.length →
      getPeriod mask leastsq data (.times ts) = .error .indexError) ∧
    (11 ≤ data.length → ∀ ts, 2 ≤ ts.length → ts.length ≠ data.length →
      getPeriod mask leastsq data (.times ts) = .error .valueError) ∧
    (11 ≤ data.length → ∀ arg ts r guess, Spec.Sampling data arg ts r → ts.length = data.length →
      makeGuess mask data r = .ok guess → |leastsq (ts.zip data) guess 3| < 1 →
      (Spec.normalMatrix ts (leastsq (ts.zip data) guess)).det = 0 →
      getPeriod mask leastsq data arg = .error .linAlgError) := by
  have hts : ∀ ts : List ℝ, 2 ≤ ts.length → ∃ r, sampleTimes data (.times ts) = .ok (ts, r) := by
    intro ts h
    unfold sampleTimes
    dsimp only
    rw [if_neg]
    · exact ⟨_, rfl⟩
    · intro h0
      have := npDiff_length ts
      rw [h0] at this
      simp at this; omega
  refine ⟨fun x => rfl, rfl, ?_, ?_, ?_, ?_, ?_⟩
  · intro ts h
    have : npDiff ts = [] := List.eq_nil_of_length_eq_zero (by rw [npDiff_length]; omega)
    unfold getPeriod sampleTimes
    dsimp only
    rw [if_pos this]
  · intro h n hn
    unfold getPeriod sampleTimes
    dsimp only
    rw [if_neg hn]
    simp only []
    rw [C115_too_short _ _ _ h]
  · intro h ts h2
    obtain ⟨r, hr⟩ := hts ts h2
    unfold getPeriod
    rw [hr]
    simp only []
    rw [C115_too_short _ _ _ h]
  · intro h ts h2 hne
    obtain ⟨r, hr⟩ := hts ts h2
    unfold getPeriod
    rw [hr]
    simp only []
    unfold makeGuess
    rw [if_neg (by omega)]
    simp only []
    rw [if_pos hne]
  · intro h arg ts r guess hs hlen hg hz hdet
    unfold getPeriod
    rw [sampleTimes_spec data (by omega) arg ts r hs]
    simp only []
    rw [hg]
    simp only []
    rw [if_neg (by simpa using hlen)]
    unfold fittedPeriod
    simp only []
    rw [normalMatrix_eq ts _ hlen _ hz] at hdet
    rw [if_pos hdet]

/-- **C114.** `get_period_from_truncated` keeps all samples when there are times, and otherwise those
of `select_good_data` from 10 percent of the largest deviation on (C56). -/
theorem C114_from_truncated (mask : Bool) (leastsq : List (ℝ × ℝ) → (Fin 5 → ℝ) → Fin 5 → ℝ)
    (data : List ℝ) :
    (∀ ts, getPeriodFromTruncated mask leastsq data (.times ts) = getPeriod mask leastsq data (.times ts)) ∧
    (∀ n i j, Spec.goodRange data (1 / 10) i j →
      getPeriodFromTruncated mask leastsq data (.int n) =
        getPeriod mask leastsq ((data.take j).drop i) (.int n)) ∧
    (∀ x, getPeriodFromTruncated mask leastsq data (.number x) = .error .valueError ∨
      ∃ e, selectGoodData data (1 / 10) = .error e ∧
        getPeriodFromTruncated mask leastsq data (.number x) = .error e) := by
  have h10 : (0.1 : ℝ) = 1 / 10 := by norm_num
  refine ⟨fun ts => rfl, ?_, ?_⟩
  · intro n i j h
    unfold getPeriodFromTruncated
    rw [h10, (C56_slice data (1 / 10) _).2 ⟨i, j, h, rfl⟩]
    rfl
  · intro x
    unfold getPeriodFromTruncated
    rw [h10]
    cases h : selectGoodData data (1 / 10) with
    | ok good => left; rfl
    | error e => right; exact ⟨e, rfl, rfl⟩

/-- Eleven samples of `sin (π t / 2)` at the times 0, 1, ..., 10. -/
noncomputable def sineSamples : List ℝ := (List.range 11).map fun i : ℕ => sin (π / 2 * i)

/-- non-vacuity of C114: samples on an undamped oscillation of period 4; the fit that finds it gives
exactly this period and no uncertainty. -/
theorem example_sine_period (mask : Bool) :
    getPeriod mask (fun _ _ => ![0, 1, 0, 0, π / 2]) sineSamples (.int 1) = .ok (4, some 0) := by
  have hlen : sineSamples.length = 11 := by simp [sineSamples]
  obtain ⟨guess, p, -, hp, h⟩ := C114_period mask (fun _ _ => ![0, 1, 0, 0, π / 2]) sineSamples
    ((List.range sineSamples.length).map fun i : ℕ => (i : ℝ) / ((1 : ℤ) : ℝ)) (.int 1) 1 (by omega)
    ⟨by norm_num, rfl, rfl⟩ (by simp)
  subst hp
  set p : Fin 5 → ℝ := ![0, 1, 0, 0, π / 2] with hp
  have hdec : ∀ t, Spec.decaying p t = sin (π / 2 * t) := by
    intro t; simp [Spec.decaying, hp]
  set ts : List ℝ := (List.range sineSamples.length).map fun i : ℕ => (i : ℝ) / ((1 : ℤ) : ℝ) with hts
  have hall : ∀ e ∈ ts.zip sineSamples, e.2 = Spec.decaying p e.1 := by
    rintro ⟨a, b⟩ he
    rw [hdec]
    rw [hts, hlen, sineSamples, List.zip_map', List.mem_map] at he
    obtain ⟨i, -, hi⟩ := he
    cases hi
    simp
  have hmis : Spec.misfit ts sineSamples p = 0 := by
    unfold Spec.misfit
    refine List.sum_eq_zero ?_
    intro x hx
    obtain ⟨e, he, rfl⟩ := List.mem_map.1 hx
    rw [hall e he]; ring
  have hmin : IsLocalMin (Spec.misfit ts sineSamples) p := by
    refine Filter.Eventually.of_forall fun q => ?_
    rw [hmis]
    unfold Spec.misfit
    refine List.sum_nonneg ?_
    intro x hx
    obtain ⟨e, he, rfl⟩ := List.mem_map.1 hx
    positivity
  have hz : |p 3| < 1 := by simp [hp]
  have hw : 0 < p 4 := by simp [hp]; exact Real.pi_pos
  have hdet : (Spec.normalMatrix ts p).det ≠ 0 := by
    intro hdet
    obtain ⟨v, hv0, hv⟩ := Matrix.exists_mulVec_eq_zero_iff.2 hdet
    rw [normalMatrix_eq ts 11 (by simp [hts, hlen]) p hz, ← Matrix.mulVec_mulVec] at hv
    set J := fitJacobian p fun i : Fin 11 => ts.getD i 0 with hJ
    have hJv : J *ᵥ v = 0 := by
      have h1 : (J *ᵥ v) ⬝ᵥ (J *ᵥ v) = 0 := by
        have : v ⬝ᵥ (Jᵀ *ᵥ (J *ᵥ v)) = 0 := by rw [hv]; simp
        rw [Matrix.dotProduct_mulVec, Matrix.vecMul_transpose] at this
        exact this
      exact dotProduct_self_eq_zero.1 h1
    have hrow : ∀ i : ℕ, i < 11 → v 0 + sin (π / 2 * i) * v 1 + cos (π / 2 * i) * v 2 -
        π / 2 * i * sin (π / 2 * i) * v 3 + i * cos (π / 2 * i) * v 4 = 0 := by
      intro i hi
      have := congrFun hJv ⟨i, hi⟩
      simp only [Matrix.mulVec, dotProduct, hJ, fitJacobian, Matrix.of_apply, Fin.sum_univ_five] at this
      have hti : ts.getD i 0 = i := by simp [hts, hlen, hi]
      rw [hti] at this
      simp [jacFitfunc, hp] at this
      linarith
    have r0 := hrow 0 (by norm_num)
    have r1 := hrow 1 (by norm_num)
    have r2 := hrow 2 (by norm_num)
    have r3 := hrow 3 (by norm_num)
    have r4 := hrow 4 (by norm_num)
    have e2 : π / 2 * ((2 : ℕ) : ℝ) = π := by push_cast; ring
    have e3 : π / 2 * ((3 : ℕ) : ℝ) = π / 2 + π := by push_cast; ring
    have e4 : π / 2 * ((4 : ℕ) : ℝ) = 2 * π := by push_cast; ring
    simp at r0 r1
    rw [e2] at r2
    rw [e3] at r3
    rw [e4] at r4
    simp [Real.sin_add_pi, Real.cos_add_pi] at r2 r3 r4
    have hpi := Real.pi_pos
    have v4 : v 4 = 0 := by linarith
    have v2 : v 2 = 0 := by linarith
    have v00 : v 0 = 0 := by linarith
    have v3 : π * v 3 = 0 := by linarith
    have v3' : v 3 = 0 := by
      rcases mul_eq_zero.1 v3 with h | h
      · exact absurd h hpi.ne'
      · exact h
    have v1 : v 1 = 0 := by rw [v3', v00] at r1; linarith
    apply hv0
    ext k
    fin_cases k <;> assumption
  obtain ⟨s, h1, h2, h3, h4⟩ := h hmin hz hw (Spec.normalMatrix ts p)⁻¹
    (Matrix.nonsing_inv_mul _ (isUnit_iff_ne_zero.2 hdet))
  rw [h1, h4.2 hall]
  have hpi := Real.pi_pos
  have : Spec.periodOf p = 4 := by
    simp [Spec.periodOf, hp]
    field_simp
    norm_num
  rw [this]
end BP
