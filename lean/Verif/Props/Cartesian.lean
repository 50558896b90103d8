import Verif.Model.Cartesian
import Verif.Props.Com

/-!
# C159: `cartesian` and the types of the arrays
-/

set_option linter.unusedSimpArgs false

namespace BP

open Spec

/-- The integer part of a number: nearer to 0, less than 1 away. -/
def Spec.IntegerPart (x y : ℝ) : Prop := (∃ k : ℤ, y = k) ∧ |y| ≤ |x| ∧ |x - y| < 1 ∧ 0 ≤ x * y

theorem truncZ_part (x : ℝ) : IntegerPart x (truncZ x) := by
  unfold truncZ IntegerPart
  split_ifs with h
  · have h1 := Int.floor_le x
    have h2 := Int.lt_floor_add_one x
    have h3 : (0 : ℝ) ≤ (⌊x⌋ : ℤ) := by exact_mod_cast Int.floor_nonneg.2 h
    refine ⟨⟨_, rfl⟩, ?_, ?_, mul_nonneg h h3⟩
    · rw [abs_of_nonneg h, abs_of_nonneg h3]; exact h1
    · rw [abs_of_nonneg (by linarith)]; linarith
  · push Not at h
    have h1 := Int.le_ceil x
    have h2 := Int.ceil_lt_add_one x
    have h3 : ((⌈x⌉ : ℤ) : ℝ) ≤ 0 := by exact_mod_cast Int.ceil_le.2 (by simpa using h.le)
    refine ⟨⟨_, rfl⟩, ?_, ?_, mul_nonneg_of_nonpos_of_nonpos h.le h3⟩
    · rw [abs_of_neg h, abs_of_nonpos h3]; linarith
    · rw [abs_of_nonpos (by linarith)]; linarith

theorem truncZ_whole (x : ℝ) (h : ∃ k : ℤ, x = k) : truncZ x = x := by
  obtain ⟨k, rfl⟩ := h
  unfold truncZ
  split_ifs <;> simp

theorem flat_replicate_map {α β : Type} (f : α → β) (a : List α) (m : ℕ) :
    (a.flatMap fun x => List.replicate m x).map f = (a.map f).flatMap fun x => List.replicate m x := by
  rw [List.map_flatMap, List.flatMap_map]
  simp

theorem buffer_eq (i : Bool) (arrays : List (List ℝ)) : ∀ rows,
    cartesianBuffer i rows arrays = cartesianInto rows (arrays.map (List.map (storeAs i))) := by
  induction arrays with
  | nil => intro rows; rfl
  | cons a rest ih =>
    intro rows
    have hl : ((a :: rest).map (List.map (storeAs i))).map List.length = (a :: rest).map List.length := by
      simp [List.map_map, Function.comp_def]
    cases rest with
    | nil =>
      simp only [List.map_cons, List.map_nil] at hl ⊢
      rw [cartesianBuffer, cartesianInto]
      simp only [List.map_cons, List.map_nil]
      rw [hl, List.length_map]
      simp only [← flat_replicate_map, List.length_map]
      split_ifs <;> rfl
    | cons b rest =>
      simp only [List.map_cons] at hl ih ⊢
      rw [cartesianBuffer, cartesianInto]
      simp only [List.map_cons]
      rw [hl, List.length_map]
      simp only [← flat_replicate_map, List.length_map, ih]
      split_ifs
      · generalize cartesianInto _ _ = z; cases z <;> rfl
      · generalize cartesianInto _ _ = z; cases z <;> rfl
      · rfl

/-- The values of an array after they were stored in an array with the type of `first`. -/
def Spec.StoredAs (first : NpArray) (a b : List ℝ) : Prop :=
  if first.integer then List.Forall₂ IntegerPart a b else b = a

/-- **C159.** What `cartesian` returns for any positive number of non-empty arrays: the product, in order, of the arrays stored with
the type of the first one. -/
theorem C159_stored_with_the_first_type (a : NpArray) (rest : List NpArray) (h : ∀ b ∈ a :: rest, b.data ≠ []) :
    ∃ stored : List (List ℝ), List.Forall₂ (StoredAs a) ((a :: rest).map NpArray.data) stored ∧
      typedCartesian (a :: rest) = .ok (product stored) := by
  refine ⟨((a :: rest).map NpArray.data).map (List.map (storeAs a.integer)), ?_, ?_⟩
  · rw [List.forall₂_map_right_iff]
    refine List.forall₂_same.2 fun x _ => ?_
    unfold StoredAs
    split_ifs with hi
    · rw [List.forall₂_map_right_iff]
      refine List.forall₂_same.2 fun y _ => ?_
      rw [storeAs, if_pos hi]
      exact truncZ_part y
    · have : storeAs a.integer = id := by
        funext y; rw [storeAs, if_neg hi]; rfl
      rw [this, List.map_id]
  · rw [typedCartesian, buffer_eq]
    have := C31_cartesian_is_product (((a :: rest).map NpArray.data).map (List.map (storeAs a.integer))) (by simp) (by
      intro b hb
      simp only [List.mem_map] at hb
      obtain ⟨c, ⟨d, hd, rfl⟩, rfl⟩ := hb
      simpa using h d hd)
    rw [cartesian] at this
    rw [← this]
    congr 1
    simp [List.map_map, Function.comp_def]

/-- **C159.** The values are unchanged if the first array is of floats or all values are integers. -/
theorem C159_product_partial (a : NpArray) (rest : List NpArray) (h : ∀ b ∈ a :: rest, b.data ≠ [])
    (hi : a.integer = false ∨ ∀ b ∈ a :: rest, ∀ x ∈ b.data, ∃ k : ℤ, x = k) :
    typedCartesian (a :: rest) = .ok (product ((a :: rest).map NpArray.data)) := by
  have e : ((a :: rest).map NpArray.data).map (List.map (storeAs a.integer)) = (a :: rest).map NpArray.data := by
    rw [List.map_map]
    refine List.map_congr_left fun b hb => ?_
    show b.data.map (storeAs a.integer) = b.data
    conv_rhs => rw [← List.map_id b.data]
    refine List.map_congr_left fun x hx => ?_
    rcases hi with hi | hi
    · rw [storeAs, hi]; rfl
    · rw [storeAs]
      split_ifs
      · exact truncZ_whole x (hi b hb x hx)
      · rfl
  rw [typedCartesian, buffer_eq, e]
  have := C31_cartesian_is_product ((a :: rest).map NpArray.data) (by simp) (by
    intro b hb
    obtain ⟨d, hd, rfl⟩ := List.mem_map.1 hb
    exact h d hd)
  rwa [cartesian] at this

/-- **C159.** Refutation: `cartesian(([1, 2], [0.5, 1.5]))` returns rows that hold no value of the second array. -/
theorem C159_truncated : typedCartesian [⟨true, [1, 2]⟩, ⟨false, [0.5, 1.5]⟩] = .ok [[1, 0], [1, 1], [2, 0], [2, 1]] := by
  have e1 : truncZ 1 = 1 := truncZ_whole 1 ⟨1, by simp⟩
  have e2 : truncZ 2 = 2 := truncZ_whole 2 ⟨2, by simp⟩
  have e3 : truncZ 0.5 = 0 := by
    have : ⌊(0.5 : ℝ)⌋ = 0 := by rw [Int.floor_eq_iff]; norm_num
    unfold truncZ; rw [if_pos (by norm_num), this]; simp
  have e4 : truncZ 1.5 = 1 := by
    have : ⌊(1.5 : ℝ)⌋ = 1 := by rw [Int.floor_eq_iff]; norm_num
    unfold truncZ; rw [if_pos (by norm_num), this]; simp
  rw [typedCartesian, buffer_eq]
  have := C31_cartesian_is_product [[(1 : ℝ), 2], [0, 1]] (by simp) (by simp)
  rw [cartesian] at this
  simp only [List.map_cons, List.map_nil, storeAs, if_true, e1, e2, e3, e4, List.length_cons, List.length_nil] at this ⊢
  rw [this]
  rfl

/-- non-vacuity of C159: an array of floats first -/
example : typedCartesian [⟨false, [0.5, 1.5]⟩, ⟨true, [1, 2]⟩] = .ok [[0.5, 1], [0.5, 2], [1.5, 1], [1.5, 2]] :=
  C159_product_partial ⟨false, [0.5, 1.5]⟩ [⟨true, [1, 2]⟩] (by simp) (.inl rfl)

end BP
