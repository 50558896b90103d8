import Mathlib.Algebra.Order.Field.Basic
import Mathlib.Data.Nat.Digits.Lemmas
import Mathlib.Tactic.Linarith
import Mathlib.Tactic.Ring
import Mathlib.Tactic.FieldSimp
import Mathlib.Tactic.Positivity
import Verif.Model.Tables

/-!
# tables.py: C57-C60, C85
-/

set_option linter.unusedSimpArgs false

namespace BP

/-! ## Specification of decimal text -/

/-- The value of one digit character. -/
def Spec.digitValue (c : Char) : ℕ := c.toNat - '0'.toNat

/-- The number written by a list of digit characters. -/
def Spec.numberOf (l : Text) : ℕ := l.foldl (fun acc c => 10 * acc + Spec.digitValue c) 0

/-- The text `s` writes the number `n / 10 ^ d` with `d` decimals. -/
structure Spec.IsDecimal (s : Text) (d : ℕ) (n : ℤ) : Prop where
  form : ∃ ip fp : Text, ip ≠ [] ∧ fp.length = d ∧ (∀ c ∈ ip ++ fp, '0' ≤ c ∧ c ≤ '9') ∧
    Spec.numberOf (ip ++ fp) = n.natAbs ∧ s = (if n < 0 then ['-'] else []) ++ ip ++ '.' :: fp

/-! ## Rounding and formatting -/

theorem roundHalfEven_near (x : ℚ) : |x - roundHalfEven x| ≤ 1 / 2 := by
  have h1 := Int.floor_le x
  have h2 := Int.lt_floor_add_one x
  unfold roundHalfEven
  rw [abs_le]
  split_ifs <;> push_cast <;> constructor <;> linarith

theorem roundHalfEven_nonneg (x : ℚ) (h : 0 ≤ x) : 0 ≤ roundHalfEven x := by
  have : 0 ≤ ⌊x⌋ := Int.floor_nonneg.2 h
  unfold roundHalfEven
  split_ifs <;> omega

theorem roundHalfEven_intCast (n : ℤ) : roundHalfEven n = n := by
  unfold roundHalfEven
  simp

theorem roundHalfEven_pos_iff (x : ℚ) : 1 ≤ roundHalfEven x ↔ 1 / 2 < x := by
  have h1 := Int.floor_le x
  have h2 := Int.lt_floor_add_one x
  constructor
  · intro h
    by_contra hx
    rw [not_lt] at hx
    have h0 : ⌊x⌋ ≤ 0 := by
      rw [Int.floor_le_iff]; push_cast; linarith
    have hc : (⌊x⌋ : ℚ) ≤ 0 := by exact_mod_cast h0
    unfold roundHalfEven at h
    split_ifs at h with a b c
    · omega
    · have : ⌊x⌋ = 0 := by omega
      rw [this] at b; push_cast at b; linarith
    · omega
    · have : ⌊x⌋ = 0 := by omega
      omega
  · intro h
    have := (abs_le.1 (roundHalfEven_near x)).2
    have h3 : (0 : ℚ) < roundHalfEven x := by linarith
    have : 0 < roundHalfEven x := by exact_mod_cast h3
    omega

theorem roundHalfEven_lt_iff (x : ℚ) (n : ℤ) (hn : n % 2 = 0) : roundHalfEven x < n ↔ x < n - 1 / 2 := by
  have h1 := Int.floor_le x
  have h2 := Int.lt_floor_add_one x
  constructor
  · intro h
    by_contra hx
    rw [not_lt] at hx
    have h0 : n - 1 ≤ ⌊x⌋ := by
      rw [Int.le_floor]; push_cast; linarith
    unfold roundHalfEven at h
    split_ifs at h with a b c
    · have : ⌊x⌋ = n - 1 := by omega
      rw [this] at a; push_cast at a; linarith
    · omega
    · have : ⌊x⌋ = n - 1 := by omega
      omega
    · omega
  · intro h
    have := (abs_le.1 (roundHalfEven_near x)).1
    have h3 : (roundHalfEven x : ℚ) < n := by linarith
    exact_mod_cast h3

theorem roundDec_cast (x : ℚ) (d : ℕ) : ((roundDec x d : ℕ) : ℤ) = roundHalfEven (|x| * 10 ^ d) := by
  unfold roundDec
  exact Int.toNat_of_nonneg (roundHalfEven_nonneg _ (by positivity))

theorem roundDec_near (x : ℚ) (d : ℕ) : |(|x| * 10 ^ d) - roundDec x d| ≤ 1 / 2 := by
  have h := roundHalfEven_near (|x| * 10 ^ d)
  rw [← roundDec_cast] at h
  simpa using h

theorem roundDec_roundQ (x : ℚ) (d : ℕ) : roundDec (roundQ x d) d = roundDec x d := by
  have h10 : (10 : ℚ) ^ d ≠ 0 := by positivity
  have : |roundQ x d| * 10 ^ d = ((roundDec x d : ℕ) : ℤ) := by
    unfold roundQ
    rw [abs_mul, abs_of_nonneg (a := (roundDec x d : ℚ) / 10 ^ d) (by positivity)]
    have h1 : |(if x < 0 then (-1 : ℚ) else 1)| = 1 := by split_ifs <;> simp
    rw [h1]
    push_cast
    field_simp
  have h := roundDec_cast (roundQ x d) d
  rw [this, roundHalfEven_intCast] at h
  exact_mod_cast h

theorem roundQ_neg_iff (x : ℚ) (d : ℕ) : roundQ x d < 0 ↔ x < 0 ∧ roundDec x d ≠ 0 := by
  unfold roundQ
  by_cases h : x < 0
  · simp only [h, if_true, true_and]
    rw [neg_one_mul, neg_lt_zero, div_pos_iff_of_pos_right (by positivity)]
    rw [Nat.cast_pos, Nat.pos_iff_ne_zero]
  · simp only [h, if_false, false_and, iff_false, not_lt, one_mul]
    positivity

theorem fixed_roundQ (x : ℚ) (d : ℕ) : fixed (roundQ x d) d = fixed x d := by
  unfold fixed
  simp only [roundDec_roundQ, roundQ_neg_iff, and_assoc, and_self]

theorem paddedDigits_length (n d : ℕ) :
    (paddedDigits n d).length = max (d + 1) (Nat.digits 10 n).length := by
  unfold paddedDigits
  simp only [List.length_append, List.length_replicate]
  omega

theorem ofDigits_paddedDigits (n d : ℕ) : Nat.ofDigits 10 (paddedDigits n d) = n := by
  unfold paddedDigits
  rw [Nat.ofDigits_append, Nat.ofDigits_digits]
  have : ∀ k, Nat.ofDigits 10 (List.replicate k 0) = 0 := by
    intro k
    induction k with
    | zero => simp
    | succ k ih => rw [List.replicate_succ, Nat.ofDigits_cons, ih]
  rw [this]
  simp

theorem paddedDigits_lt (n d : ℕ) : ∀ x ∈ paddedDigits n d, x < 10 := by
  intro x hx
  unfold paddedDigits at hx
  rcases List.mem_append.1 hx with h | h
  · exact Nat.digits_lt_base (by norm_num) h
  · rw [List.eq_of_mem_replicate h]; norm_num

theorem digitChar_facts : ∀ n < 10, Spec.digitValue (digitChar n) = n ∧ '0' ≤ digitChar n ∧ digitChar n ≤ '9' ∧
    digitChar n ≠ '.' ∧ digitChar n ≠ '+' ∧ (digitChar n = '0' ↔ n = 0) := by decide

theorem numberOf_digits (L : List ℕ) (h : ∀ x ∈ L, x < 10) :
    Spec.numberOf (L.reverse.map digitChar) = Nat.ofDigits 10 L := by
  unfold Spec.numberOf
  induction L with
  | nil => simp
  | cons a L ih =>
    rw [List.reverse_cons, List.map_append, List.foldl_append, ih fun x hx => h x (List.mem_cons_of_mem _ hx)]
    simp only [List.map_cons, List.map_nil, List.foldl_cons, List.foldl_nil, Nat.ofDigits_cons]
    rw [(digitChar_facts a (h a (by simp))).1]
    ring

/-- `'%.df'` writes the rounded number with `d` decimals. -/
theorem fixed_isDecimal (x : ℚ) (d : ℕ) :
    Spec.IsDecimal (fixed x d) d (if x < 0 then -(roundDec x d : ℤ) else roundDec x d) := by
  have hlen := paddedDigits_length (roundDec x d) d
  refine ⟨⟨((paddedDigits (roundDec x d) d).drop d).reverse.map digitChar,
    ((paddedDigits (roundDec x d) d).take d).reverse.map digitChar, ?_, ?_, ?_, ?_, ?_⟩⟩
  · intro h
    have := congrArg List.length h
    simp at this
    omega
  · simp; omega
  · intro c hc
    rw [← List.map_append, ← List.reverse_append, List.take_append_drop, List.mem_map] at hc
    obtain ⟨n, hn, rfl⟩ := hc
    have := digitChar_facts n (paddedDigits_lt _ _ n (List.mem_reverse.1 hn))
    exact ⟨this.2.1, this.2.2.1⟩
  · rw [← List.map_append, ← List.reverse_append, List.take_append_drop,
      numberOf_digits _ (paddedDigits_lt _ _), ofDigits_paddedDigits]
    split_ifs <;> simp
  · unfold fixed
    have : (if x < 0 then -(roundDec x d : ℤ) else roundDec x d) < 0 ↔ x < 0 ∧ roundDec x d ≠ 0 := by
      split_ifs with h <;> simp [h] <;> omega
    simp only [this, List.append_assoc]

theorem fixed_length (x : ℚ) (d : ℕ) : d + 2 ≤ (fixed x d).length := by
  have hlen := paddedDigits_length (roundDec x d) d
  unfold fixed
  simp only [List.length_append, List.length_map, List.length_reverse, List.length_drop, List.length_cons,
    List.length_take]
  omega

theorem fixed_length_small (x : ℚ) (d : ℕ) (h0 : 0 ≤ x) (h : roundDec x d < 10 ^ (d + 1)) :
    (fixed x d).length = d + 2 := by
  have hlen := paddedDigits_length (roundDec x d) d
  have h2 : (Nat.digits 10 (roundDec x d)).length ≤ d + 1 := by
    rw [Nat.digits_length_le_iff (by norm_num)]
    exact h
  unfold fixed
  rw [if_neg (by rw [not_and_or]; exact Or.inl (not_lt.2 h0))]
  simp only [List.length_append, List.length_map, List.length_reverse, List.length_drop, List.length_cons,
    List.length_take, List.length_nil]
  omega

/-- The position of the first digit other than 0 in the formatted uncertainty. -/
theorem fixed_firstDigit (x : ℚ) (h0 : 0 ≤ x) :
    (fixed x 14).findIdx? (fun c => ¬(c = '0' ∨ c = '.')) =
      if roundDec x 14 = 0 then none
      else if 10 ^ 14 ≤ roundDec x 14 then some 0
      else some (16 - (Nat.digits 10 (roundDec x 14)).length) := by
  have hsign : ¬(x < 0 ∧ roundDec x 14 ≠ 0) := fun h => not_lt.2 h0 h.1
  have hpos : ∀ (n : ℕ) (r : List ℕ) (s : Text), n ≠ 0 → n < 10 →
      List.findIdx? (fun c => decide (¬(c = '0' ∨ c = '.'))) ((n :: r).map digitChar ++ s) = some 0 := by
    intro n r s hn hlt
    have := digitChar_facts n hlt
    rw [List.map_cons, List.cons_append, List.findIdx?_cons]
    simp [this.2.2.2.1, this.2.2.2.2.2, hn]
  have hlast : ∀ n : ℕ, n ≠ 0 → ∃ a r, (Nat.digits 10 n).reverse = a :: r ∧ a ≠ 0 ∧ a < 10 := by
    intro n hn
    have hne : Nat.digits 10 n ≠ [] := Nat.digits_ne_nil_iff_ne_zero.2 hn
    refine ⟨(Nat.digits 10 n).getLast hne, (Nat.digits 10 n).dropLast.reverse, ?_,
      Nat.getLast_digit_ne_zero 10 hn, Nat.digits_lt_base (m := n) (by norm_num) (List.getLast_mem hne)⟩
    conv_lhs => rw [← List.dropLast_append_getLast hne]
    simp
  unfold fixed
  rw [if_neg hsign]
  simp only [List.nil_append]
  by_cases hN : roundDec x 14 = 0
  · rw [if_pos hN, hN]
    decide
  rw [if_neg hN]
  obtain ⟨a, r, har, ha0, ha10⟩ := hlast _ hN
  by_cases hbig : 10 ^ 14 ≤ roundDec x 14
  · rw [if_pos hbig]
    have hlen : 14 < (Nat.digits 10 (roundDec x 14)).length :=
      (Nat.lt_digits_length_iff (by norm_num) _).2 hbig
    have hL : paddedDigits (roundDec x 14) 14 = Nat.digits 10 (roundDec x 14) := by
      unfold paddedDigits
      rw [Nat.sub_eq_zero_of_le (by omega)]
      simp
    rw [hL]
    have hr : ∃ r', ((Nat.digits 10 (roundDec x 14)).drop 14).reverse = a :: r' := by
      rw [List.reverse_drop, har]
      have : ∃ k, (Nat.digits 10 (roundDec x 14)).length - 14 = k + 1 :=
        ⟨(Nat.digits 10 (roundDec x 14)).length - 15, by omega⟩
      obtain ⟨k, hk⟩ := this
      rw [hk]
      exact ⟨_, List.take_succ_cons⟩
    obtain ⟨r', hr'⟩ := hr
    rw [hr']
    exact hpos a r' _ ha0 ha10
  · rw [if_neg hbig]
    have hlen : (Nat.digits 10 (roundDec x 14)).length ≤ 14 :=
      (Nat.digits_length_le_iff (by norm_num) _).2 (not_le.1 hbig)
    obtain ⟨k, hk⟩ : ∃ k, 14 - (Nat.digits 10 (roundDec x 14)).length = k := ⟨_, rfl⟩
    have hL : paddedDigits (roundDec x 14) 14 =
        (Nat.digits 10 (roundDec x 14) ++ List.replicate k 0) ++ [0] := by
      unfold paddedDigits
      rw [show 14 + 1 - (Nat.digits 10 (roundDec x 14)).length = k + 1 by omega, List.replicate_succ',
        List.append_assoc]
    have hl14 : (Nat.digits 10 (roundDec x 14) ++ List.replicate k 0).length = 14 := by
      simp; omega
    rw [hL, List.drop_left' hl14, List.take_left' hl14, List.reverse_append, har, List.reverse_replicate]
    simp only [List.reverse_cons, List.reverse_nil, List.nil_append, List.map_cons, List.map_nil,
      List.map_append, List.map_replicate, List.cons_append]
    have hz : digitChar 0 = '0' := by decide
    rw [hz, List.findIdx?_cons, List.findIdx?_cons, List.findIdx?_append]
    have hrep : List.findIdx? (fun c => decide (¬(c = '0' ∨ c = '.'))) (List.replicate k '0') = none := by
      rw [List.findIdx?_eq_none_iff]
      intro c hc
      rw [List.eq_of_mem_replicate hc]
      simp
    have h1 := hpos a r [] ha0 ha10
    simp only [List.append_nil, List.map_cons] at h1
    rw [hrep, h1]
    simp
    omega

/-! ## C60 -/

/-- The text shown for an uncertainty between 5e-15 and 1 - 5e-15. -/
theorem uroundUncertain_ok (nom sd : ℚ) (h1 : 5 / 10 ^ 15 < sd) (h2 : sd < 1 - 5 / 10 ^ 15) :
    ∃ d : ℕ, 1 ≤ d ∧ d ≤ 14 ∧ 1 ≤ roundDec sd d ∧ roundDec sd d ≤ 10 ∧
      uroundUncertain nom sd = .ok (fixed nom d ++ pm ++ fixed sd d) := by
  have h0 : 0 ≤ sd := by
    have : (0 : ℚ) < 5 / 10 ^ 15 := by positivity
    linarith
  have hM := roundDec_cast sd 14
  rw [abs_of_nonneg h0] at hM
  have hMpos : 1 ≤ roundDec sd 14 := by
    have : 1 ≤ roundHalfEven (sd * 10 ^ 14) := (roundHalfEven_pos_iff _).2 (by linarith)
    omega
  have hMlt : roundDec sd 14 < 10 ^ 14 := by
    have : roundHalfEven (sd * 10 ^ 14) < 10 ^ 14 :=
      (roundHalfEven_lt_iff _ _ (by norm_num)).2 (by push_cast; linarith)
    omega
  obtain ⟨m, hm⟩ : ∃ m, (Nat.digits 10 (roundDec sd 14)).length = m := ⟨_, rfl⟩
  have hm14 : m ≤ 14 := hm ▸ (Nat.digits_length_le_iff (by norm_num) _).2 hMlt
  have hm1 : 1 ≤ m := by
    rw [← hm]
    exact List.length_pos_iff.2 (Nat.digits_ne_nil_iff_ne_zero.2 (by omega))
  have hlo : 10 ^ (m - 1) ≤ roundDec sd 14 :=
    (Nat.lt_digits_length_iff (by norm_num) _).1 (by omega)
  have hhi : roundDec sd 14 < 10 ^ m :=
    (Nat.digits_length_le_iff (by norm_num) _).1 hm.le
  have hnear := abs_le.1 (roundDec_near sd 14)
  rw [abs_of_nonneg h0] at hnear
  have hd : (10 : ℚ) ^ (15 - m) * 10 ^ (m - 1) = 10 ^ 14 := by
    rw [← pow_add]; congr 1; omega
  have hP : (0 : ℚ) < 10 ^ (m - 1) := by positivity
  have hP1 : (1 : ℚ) ≤ 10 ^ (m - 1) := one_le_pow₀ (by norm_num)
  have hlo' : (10 : ℚ) ^ (m - 1) ≤ roundDec sd 14 := by exact_mod_cast hlo
  have hhi' : (roundDec sd 14 : ℚ) + 1 ≤ 10 * 10 ^ (m - 1) := by
    rw [← pow_succ', show m - 1 + 1 = m by omega]; exact_mod_cast hhi
  have hval : sd * 10 ^ (15 - m) * 10 ^ (m - 1) = sd * 10 ^ 14 := by rw [mul_assoc, hd]
  have hK := roundDec_cast sd (15 - m)
  rw [abs_of_nonneg h0] at hK
  have hK1 : 1 ≤ roundDec sd (15 - m) := by
    have : 1 / 2 < sd * 10 ^ (15 - m) := by
      by_contra hc
      rw [not_lt] at hc
      have h3 : sd * 10 ^ 14 ≤ 1 / 2 * 10 ^ (m - 1) := by
        rw [← hval]; exact mul_le_mul_of_nonneg_right hc hP.le
      have h4 : 1 / 2 < sd * 10 ^ 14 := by linarith
      linarith
    have := (roundHalfEven_pos_iff _).2 this
    omega
  have hK2 : roundDec sd (15 - m) ≤ 10 := by
    have h3 : sd * 10 ^ (15 - m) < 10 := by
      by_contra hc
      rw [not_lt] at hc
      have h3 : 10 * 10 ^ (m - 1) ≤ sd * 10 ^ 14 := by
        rw [← hval]; exact mul_le_mul_of_nonneg_right hc hP.le
      linarith
    have := (abs_le.1 (roundDec_near sd (15 - m))).1
    rw [abs_of_nonneg h0] at this
    have : (roundDec sd (15 - m) : ℚ) < 11 := by linarith
    have : roundDec sd (15 - m) < 11 := by exact_mod_cast this
    omega
  refine ⟨15 - m, by omega, by omega, hK1, hK2, ?_⟩
  unfold uroundUncertain
  simp only [fixed_firstDigit sd h0, if_neg (show roundDec sd 14 ≠ 0 by omega), if_neg (not_le.2 hMlt), hm]
  rw [show 16 - m = (15 - m) + 1 by omega]
  simp only [fixed_roundQ]
  have hl : (fixed sd (15 - m)).length = 15 - m + 2 := by
    refine fixed_length_small _ _ h0 (lt_of_le_of_lt hK2 ?_)
    calc 10 = 10 ^ 1 := by norm_num
      _ < 10 ^ (15 - m + 1) := Nat.pow_lt_pow_right (by norm_num) (by omega)
  rw [hl, show 15 - m + 2 - 2 = 15 - m by omega, fixed_roundQ,
    Nat.sub_eq_zero_of_le (fixed_length nom (15 - m))]
  simp

/-- **C60 (the good range).** For a value whose standard deviation lies strictly between
5e-15 and 1 - 5e-15 and whose nominal value is not zero, `uround` returns nominal value and
uncertainty, both written with the same number of decimals, both rounded correctly, and that
number is such that the uncertainty is one to ten units of the last decimal. -/
theorem C60_uround_rounds_partial (nom sd : ℚ) (s : Text) (hnom : 1 / 10 ^ 15 ≤ |nom|)
    (h1 : 5 / 10 ^ 15 < sd) (h2 : sd < 1 - 5 / 10 ^ 15) :
    ∃ (d : ℕ) (n k : ℤ) (sn sk : Text), uround (.uncertain nom sd s) = .ok (sn ++ pm ++ sk) ∧
      1 ≤ d ∧ Spec.IsDecimal sn d n ∧ Spec.IsDecimal sk d k ∧ 1 ≤ k ∧ k ≤ 10 ∧
      |nom - n / 10 ^ d| ≤ 1 / 2 / 10 ^ d ∧ |sd - k / 10 ^ d| ≤ 1 / 2 / 10 ^ d := by
  have h0 : 0 ≤ sd := by
    have : (0 : ℚ) < 5 / 10 ^ 15 := by positivity
    linarith
  obtain ⟨d, hd1, -, hk1, hk2, h⟩ := uroundUncertain_ok nom sd h1 h2
  have hn := fixed_isDecimal nom d
  have hk := fixed_isDecimal sd d
  rw [if_neg (not_lt.2 h0)] at hk
  have hclose : ∀ x : ℚ, |x - ((if x < 0 then -(roundDec x d : ℤ) else roundDec x d : ℤ) : ℚ) / 10 ^ d| ≤
      1 / 2 / 10 ^ d := by
    intro x
    have hP : (0 : ℚ) < 10 ^ d := by positivity
    have hx := roundDec_near x d
    rw [le_div_iff₀ hP, ← abs_of_pos hP, ← abs_mul, sub_mul, abs_of_pos hP, div_mul_cancel₀ _ hP.ne']
    split_ifs with hneg
    · rw [abs_of_neg hneg] at hx
      rw [← abs_neg]
      have e : -(x * 10 ^ d - ((-(roundDec x d : ℤ) : ℤ) : ℚ)) = -x * 10 ^ d - (roundDec x d : ℚ) := by
        push_cast; ring
      rw [e]
      exact hx
    · rw [abs_of_nonneg (not_lt.1 hneg)] at hx
      exact_mod_cast hx
  refine ⟨d, _, _, _, _, ?_, hd1, hn, hk, by exact_mod_cast hk1, by exact_mod_cast hk2, hclose nom, ?_⟩
  · simp only [uround, if_neg (not_lt.2 hnom), h]
  · have := hclose sd
    rwa [if_neg (not_lt.2 h0)] at this

/-- **C60 (what fails).** A standard deviation of at most 5e-15, in particular the 0.0 that
the documentation prescribes for an unknown one, makes `uround` raise UnboundLocalError; one
of at least 1 - 5e-15 makes it raise ValueError. -/
theorem C60_uround_fails (nom sd : ℚ) (s : Text) (hnom : 1 / 10 ^ 15 ≤ |nom|) (h0 : 0 ≤ sd) :
    (sd ≤ 5 / 10 ^ 15 → uround (.uncertain nom sd s) = .error .unboundLocal) ∧
    (1 - 5 / 10 ^ 15 ≤ sd → uround (.uncertain nom sd s) = .error .valueError) := by
  have hM := roundDec_cast sd 14
  rw [abs_of_nonneg h0] at hM
  simp only [uround, if_neg (not_lt.2 hnom), uroundUncertain, fixed_firstDigit sd h0]
  refine ⟨fun h => ?_, fun h => ?_⟩
  · have : ¬ 1 ≤ roundHalfEven (sd * 10 ^ 14) := by
      rw [roundHalfEven_pos_iff, not_lt]; linarith
    rw [if_pos (show roundDec sd 14 = 0 by omega)]
  · have : ¬ roundHalfEven (sd * 10 ^ 14) < 10 ^ 14 := by
      rw [roundHalfEven_lt_iff _ _ (by norm_num), not_lt]; push_cast; linarith
    have h14 : (10 : ℕ) ^ 14 ≤ roundDec sd 14 := by omega
    rw [if_neg (by omega), if_pos h14]

/-- **C60 (what fails).** A nominal value of zero loses its uncertainty, however large. -/
theorem C60_zero_loses_uncertainty (sd : ℚ) (s : Text) :
    uround (.uncertain 0 sd s) = .ok ['0', '.', '0', '+', '/', '-', '0', '.', '0'] := by
  simp [uround]

/-- non-vacuity of C60: the value of the docstring, 2.4563752289999 with 0.0003797273827. -/
example : ∃ (d : ℕ) (n k : ℤ), |(2.4563752289999 : ℚ) - n / 10 ^ d| ≤ 1 / 2 / 10 ^ d ∧
    |(0.0003797273827 : ℚ) - k / 10 ^ d| ≤ 1 / 2 / 10 ^ d ∧ 1 ≤ k ∧ k ≤ 10 := by
  obtain ⟨d, n, k, -, -, -, -, -, -, h1, h2, h3, h4⟩ :=
    C60_uround_rounds_partial 2.4563752289999 0.0003797273827 [] (by norm_num) (by norm_num) (by norm_num)
  exact ⟨d, n, k, h3, h4, h1, h2⟩

/-! ## C57 -/

/-- `enum` lists the elements of every set, each once, in some order. -/
def Spec.Enumerates (enum : List String → List String) : Prop :=
  ∀ l, (enum l).Nodup ∧ ∀ x, x ∈ enum l ↔ x ∈ l

theorem allKeys_ok {source : String} {bikes : List TBike} {ks : List String}
    (h : allKeys source bikes = .ok ks) :
    (∀ b ∈ bikes, ∃ p, Dict.find? b.parameters source = some p) ∧
    ∀ x, x ∈ ks ↔ ∃ b ∈ bikes, ∃ p, Dict.find? b.parameters source = some p ∧ x ∈ Dict.keys p := by
  induction bikes generalizing ks with
  | nil =>
    simp only [allKeys, Except.ok.injEq] at h
    subst h
    simp
  | cons b bs ih =>
    cases hb : Dict.find? b.parameters source with
    | none => simp [allKeys, hb] at h
    | some p =>
      cases hr : allKeys source bs with
      | error e => simp [allKeys, hb, hr] at h
      | ok r =>
        simp only [allKeys, hb, hr, Except.ok.injEq] at h
        obtain ⟨h1, h2⟩ := ih hr
        subst h
        refine ⟨fun c hc => ?_, fun x => ?_⟩
        · rcases List.mem_cons.1 hc with rfl | hc
          · exact ⟨p, hb⟩
          · exact h1 c hc
        · rw [List.mem_append, h2]
          constructor
          · rintro (hx | ⟨c, hc, q, hq, hx⟩)
            · exact ⟨b, by simp, p, hb, hx⟩
            · exact ⟨c, List.mem_cons_of_mem _ hc, q, hq, hx⟩
          · rintro ⟨c, hc, q, hq, hx⟩
            rcases List.mem_cons.1 hc with rfl | hc
            · rw [hb] at hq
              cases hq
              exact Or.inl hx
            · exact Or.inr ⟨c, hc, q, hq, hx⟩

theorem allKeys_total {source : String} {bikes : List TBike}
    (h : ∀ b ∈ bikes, (Dict.find? b.parameters source).isSome) : ∃ ks, allKeys source bikes = .ok ks := by
  induction bikes with
  | nil => exact ⟨[], rfl⟩
  | cons b bs ih =>
    obtain ⟨ks, hks⟩ := ih fun c hc => h c (List.mem_cons_of_mem _ hc)
    obtain ⟨p, hp⟩ := Option.isSome_iff_exists.1 (h b (by simp))
    exact ⟨_, by simp only [allKeys, hp, hks]; rfl⟩

instance lowerLE_total : Std.Total fun a b : String => lower a ≤ lower b :=
  ⟨fun a b => le_total (lower a) (lower b)⟩

instance lowerLE_trans : IsTrans String fun a b : String => lower a ≤ lower b :=
  ⟨fun _ _ _ h1 h2 => le_trans h1 h2⟩

/-- **C57.** The variables of a table are exactly the names used by some bicycle, each once,
in ascending order without regard to case, whatever the order of the set. -/
theorem C57_variable_list {enum : List String → List String} (henum : Spec.Enumerates enum)
    {source : String} {latex : Bool} {bikes : List TBike} {t : Table}
    (h : makeTable enum source latex bikes = .ok t) :
    t.allVariables.Nodup ∧
    (∀ x, x ∈ t.allVariables ↔
      ∃ b ∈ bikes, ∃ p, Dict.find? b.parameters source = some p ∧ x ∈ Dict.keys p) ∧
    t.allVariables.Pairwise fun a b => lower a ≤ lower b := by
  unfold makeTable at h
  cases hk : allKeys source bikes with
  | error e => simp [hk] at h
  | ok ks =>
    simp only [hk] at h
    split at h
    · cases h
    · injection h with h
      subst h
      obtain ⟨-, h2⟩ := allKeys_ok hk
      obtain ⟨e1, e2⟩ := henum ks
      refine ⟨?_, fun x => ?_, ?_⟩
      · exact (List.perm_insertionSort _ _).nodup_iff.2 e1
      · show x ∈ variableList enum ks ↔ _
        unfold variableList
        rw [(List.perm_insertionSort _ _).mem_iff, e2, h2]
      · exact List.pairwise_insertionSort _ _

/-- **C57 (determinism).** If no two names differ only in case, the order of the set does not
matter. -/
theorem C57_order_is_deterministic {enum enum' : List String → List String}
    (h1 : Spec.Enumerates enum) (h2 : Spec.Enumerates enum') (source : String) (latex : Bool)
    (bikes : List TBike) (hcase : ∀ b ∈ bikes, ∀ c ∈ bikes, ∀ p q,
      Dict.find? b.parameters source = some p → Dict.find? c.parameters source = some q →
      ∀ x ∈ Dict.keys p, ∀ y ∈ Dict.keys q, lower x = lower y → x = y) :
    makeTable enum source latex bikes = makeTable enum' source latex bikes := by
  unfold makeTable
  cases hk : allKeys source bikes with
  | error e => rfl
  | ok ks =>
    obtain ⟨-, hm⟩ := allKeys_ok hk
    have hv : variableList enum ks = variableList enum' ks := by
      obtain ⟨a1, a2⟩ := h1 ks
      obtain ⟨b1, b2⟩ := h2 ks
      have hperm : (enum ks).Perm (enum' ks) := (List.perm_ext_iff_of_nodup a1 b1).2 fun x => by rw [a2, b2]
      refine List.Perm.eq_of_pairwise (le := fun a b => lower a ≤ lower b) ?_ (List.pairwise_insertionSort _ _)
        (List.pairwise_insertionSort _ _)
        ((List.perm_insertionSort _ _).trans (hperm.trans (List.perm_insertionSort _ _).symm))
      intro x y hx hy hxy hyx
      unfold variableList at hx hy
      rw [(List.perm_insertionSort _ _).mem_iff, a2] at hx
      rw [(List.perm_insertionSort _ _).mem_iff, b2] at hy
      obtain ⟨b, hb, p, hp, hx⟩ := (hm x).1 hx
      obtain ⟨c, hc, q, hq, hy⟩ := (hm y).1 hy
      exact hcase b hb c hc p q hp hq x hx y hy (le_antisymm hxy hyx)
    simp only [hv]

/-- An order of a set: first occurrences. -/
theorem enumerates_dedup : Spec.Enumerates List.dedup :=
  fun l => ⟨List.nodup_dedup l, fun _ => List.mem_dedup⟩

/-- The reverse order. -/
theorem enumerates_dedup_reverse : Spec.Enumerates fun l => l.dedup.reverse :=
  fun l => ⟨List.nodup_reverse.2 (List.nodup_dedup l), fun _ => by simp⟩

/-- A bicycle with two names that differ only in case. -/
def exTwins : TBike := ⟨[], [("Benchmark", [("lF", .plain ['1']), ("LF", .plain ['1'])])]⟩

/-- **C57 (what fails).** Names that differ only in case come in the order of the set, which
changes from run to run. -/
theorem C57_case_twins_depend_on_the_run : ∃ (enum enum' : List String → List String)
    (bikes : List TBike) (t t' : Table), Spec.Enumerates enum ∧ Spec.Enumerates enum' ∧
    makeTable enum "Benchmark" false bikes = .ok t ∧ makeTable enum' "Benchmark" false bikes = .ok t' ∧
    t.allVariables ≠ t'.allVariables := by
  refine ⟨List.dedup, fun l => l.dedup.reverse,
    [exTwins],
    ⟨false, [exTwins], ["lF", "LF"], [[['l', 'F'], ['1'], ['N', 'A']], [['L', 'F'], ['1'], ['N', 'A']]]⟩,
    ⟨false, [exTwins], ["LF", "lF"], [[['L', 'F'], ['1'], ['N', 'A']], [['l', 'F'], ['1'], ['N', 'A']]]⟩,
    enumerates_dedup, enumerates_dedup_reverse, ?_, ?_, by decide⟩
  · rfl
  · rfl

/-! ## C58 -/

theorem splitPM_of_not_hasPM (s : Text) (h : hasPM s = false) : splitPM s = [s] := by
  have h' : ¬ ['+', '/', '-'] <:+: s := by simpa [hasPM] using h
  clear h
  induction s with
  | nil => simp [splitPM]
  | cons c r ih =>
    have hr : ¬ ['+', '/', '-'] <:+: r := fun hi => h' (hi.trans (List.suffix_cons c r).isInfix)
    rw [splitPM, ih hr]
    rintro q rfl rfl
    exact h' ⟨[], q, by simp⟩

theorem splitPM_append (s t : Text) (h : '+' ∉ s) : splitPM (s ++ pm ++ t) = s :: splitPM t := by
  induction s with
  | nil => simp [pm, splitPM]
  | cons c s ih =>
    have hc : c ≠ '+' := fun e => h (by simp [e])
    have hs : '+' ∉ s := fun hm => h (List.mem_cons_of_mem _ hm)
    rw [List.cons_append, List.cons_append, splitPM, ih hs]
    intro r h1 _
    exact hc h1

theorem fixed_no_plus (x : ℚ) (d : ℕ) : '+' ∉ fixed x d := by
  unfold fixed
  simp only [List.mem_append, List.mem_map, List.mem_cons, List.mem_reverse, not_or]
  refine ⟨by split_ifs <;> simp, ?_, by decide, ?_⟩ <;>
  · rintro ⟨n, hn, hc⟩
    have hn := by first | exact List.mem_of_mem_drop hn | exact List.mem_of_mem_take hn
    exact (digitChar_facts n (paddedDigits_lt _ _ n hn)).2.2.2.2.1 hc

theorem hasPM_of_no_plus (s : Text) (h : '+' ∉ s) : hasPM s = false := by
  simp only [hasPM, decide_eq_false_iff_not]
  intro hi
  exact h (hi.subset (by simp))

/-- What a bicycle's two cells have to show: NA and NA for a variable it does not have, the
plain value and NA for a value without uncertainty, else the value and its uncertainty as in
C60. -/
def Spec.ShowsValue (v : Option Val) (cells : List Text) : Prop :=
  match v with
  | none => cells = [['N', 'A'], ['N', 'A']]
  | some (.plain s) => hasPM s = false → cells = [s, ['N', 'A']]
  | some (.uncertain nom sd s) =>
    if |nom| < 1 / 10 ^ 15 then cells = [['0', '.', '0'], ['0', '.', '0']]
    else if 1 - 5 / 10 ^ 15 ≤ sd then cells = [s, ['N', 'A']]
    else ∃ (d : ℕ) (n k : ℤ) (sn sk : Text), cells = [sn, sk] ∧ 1 ≤ d ∧ Spec.IsDecimal sn d n ∧
      Spec.IsDecimal sk d k ∧ 1 ≤ k ∧ k ≤ 10 ∧ |nom - n / 10 ^ d| ≤ 1 / 2 / 10 ^ d ∧
      |sd - k / 10 ^ d| ≤ 1 / 2 / 10 ^ d

/-- The value of a variable of a bicycle. -/
def Spec.valueOf (source : String) (var : String) (b : TBike) : Option Val :=
  (Dict.find? b.parameters source).bind fun p => Dict.find? p var

/-- A value whose uncertainty makes the table fail: a nominal value that does not count as
zero with a standard deviation of at most 5e-15. -/
def Spec.Crashes : Option Val → Prop
  | some (.uncertain nom sd _) => 1 / 10 ^ 15 ≤ |nom| ∧ sd ≤ 5 / 10 ^ 15
  | _ => False

theorem tableCells_spec (source var : String) (b : TBike)
    (hsd : ∀ nom sd s, Spec.valueOf source var b = some (.uncertain nom sd s) → 0 ≤ sd) :
    (Spec.Crashes (Spec.valueOf source var b) → tableCells source var b = .error .unboundLocal) ∧
    (¬ Spec.Crashes (Spec.valueOf source var b) → ∃ a c, tableCells source var b = .ok [a, c] ∧
      Spec.ShowsValue (Spec.valueOf source var b) [a, c]) := by
  unfold tableCells
  rw [← Spec.valueOf]
  cases hv : Spec.valueOf source var b with
  | none => exact ⟨fun h => h.elim, fun _ => ⟨_, _, rfl, rfl⟩⟩
  | some v =>
    cases v with
    | plain s =>
      refine ⟨fun h => h.elim, fun _ => ?_⟩
      simp only [uround]
      by_cases hp : hasPM s = false
      · rw [splitPM_of_not_hasPM s hp]
        exact ⟨_, _, rfl, fun _ => rfl⟩
      · split
        · exact ⟨_, _, rfl, fun h => absurd h hp⟩
        · exact ⟨_, _, rfl, fun h => absurd h hp⟩
    | uncertain nom sd s =>
      have h0 := hsd nom sd s hv
      by_cases hn : |nom| < 1 / 10 ^ 15
      · refine ⟨fun h => absurd hn (not_lt.2 h.1), fun _ => ⟨['0', '.', '0'], ['0', '.', '0'], ?_, ?_⟩⟩
        · simp only [uround, if_pos hn]
          rfl
        · simp only [Spec.ShowsValue, if_pos hn]
      · have hn' := not_lt.1 hn
        obtain ⟨f1, f2⟩ := C60_uround_fails nom sd s hn' h0
        refine ⟨fun h => ?_, fun h => ?_⟩
        · simp only [f1 h.2]
        · have h1 : 5 / 10 ^ 15 < sd := by
            by_contra hc
            exact h ⟨hn', not_lt.1 hc⟩
          by_cases h2 : 1 - 5 / 10 ^ 15 ≤ sd
          · simp only [f2 h2]
            refine ⟨_, _, rfl, ?_⟩
            simp only [Spec.ShowsValue, if_neg hn, if_pos h2, Val.str]
          · obtain ⟨d, hd1, -, hk1, hk2, hu⟩ := uroundUncertain_ok nom sd h1 (not_le.1 h2)
            obtain ⟨d', n, k, sn, sk, e, r⟩ := C60_uround_rounds_partial nom sd s hn' h1 (not_le.1 h2)
            simp only [e]
            have hno : ∀ (t : Text) (m : ℕ) (i : ℤ), Spec.IsDecimal t m i → '+' ∉ t := by
              rintro t m i ⟨ip, fp, -, -, hc, -, rfl⟩ hmem
              rw [List.append_assoc, List.mem_append, List.mem_append, List.mem_cons] at hmem
              rcases hmem with hm | hm | hm | hm
              · split_ifs at hm <;> simp at hm
              · have := (hc '+' (List.mem_append_left _ hm)).1
                exact absurd this (by decide)
              · exact absurd hm (by decide)
              · have := (hc '+' (List.mem_append_right _ hm)).1
                exact absurd this (by decide)
            simp only [splitPM_append sn sk (hno _ _ _ r.2.1),
              splitPM_of_not_hasPM sk (hasPM_of_no_plus _ (hno _ _ _ r.2.2.1))]
            refine ⟨_, _, rfl, ?_⟩
            simp only [Spec.ShowsValue, if_neg hn, if_neg h2]
            exact ⟨d', n, k, sn, sk, rfl, r⟩

theorem mapM_ok_forall₂ {A B : Type} {f : A → Except PyErr B} {l : List A} {out : List B}
    (h : l.mapM f = .ok out) : List.Forall₂ (fun a b => f a = .ok b) l out := by
  induction l generalizing out with
  | nil => rw [List.mapM_nil] at h; cases h; exact .nil
  | cons a l ih =>
    rw [List.mapM_cons] at h
    cases ha : f a with
    | error e => rw [ha] at h; cases h
    | ok b =>
      rw [ha] at h
      cases hl : l.mapM f with
      | error e => rw [hl] at h; cases h
      | ok bs =>
        rw [hl] at h
        cases h
        exact .cons ha (ih hl)

theorem mapM_total {A B : Type} {f : A → Except PyErr B} {l : List A}
    (h : ∀ a ∈ l, ∃ b, f a = .ok b) : ∃ out, l.mapM f = .ok out := by
  induction l with
  | nil => exact ⟨[], rfl⟩
  | cons a l ih =>
    obtain ⟨b, hb⟩ := h a (by simp)
    obtain ⟨bs, hbs⟩ := ih fun x hx => h x (List.mem_cons_of_mem _ hx)
    exact ⟨b :: bs, by rw [List.mapM_cons, hb, hbs]; rfl⟩

/-- If every step succeeds or fails with the same exception and one fails, so does the loop. -/
theorem mapM_error {A B : Type} {f : A → Except PyErr B} {l : List A} {e : PyErr}
    (h : ∀ a ∈ l, (∃ b, f a = .ok b) ∨ f a = .error e) (hex : ∃ a ∈ l, f a = .error e) :
    l.mapM f = .error e := by
  induction l with
  | nil => simp at hex
  | cons a l ih =>
    rcases h a (by simp) with ⟨b, hb⟩ | hb
    · have : ∃ x ∈ l, f x = .error e := by
        obtain ⟨x, hx, hfx⟩ := hex
        rcases List.mem_cons.1 hx with rfl | hx
        · rw [hb] at hfx; cases hfx
        · exact ⟨x, hx, hfx⟩
      rw [List.mapM_cons, hb, ih (fun x hx => h x (List.mem_cons_of_mem _ hx)) this]
      rfl
    · rw [List.mapM_cons, hb]
      rfl

theorem flatten_length_two {A B : Type} {l : List A} {cells : List (List B)}
    (h : List.Forall₂ (fun _ c => c.length = 2) l cells) : cells.flatten.length = 2 * l.length := by
  induction h with
  | nil => rfl
  | cons hbc _ ih =>
    simp only [List.flatten_cons, List.length_append, List.length_cons, hbc, ih]
    omega

/-- No standard deviation of the bicycles is negative. -/
def Spec.Deviations (source : String) (bikes : List TBike) : Prop :=
  ∀ b ∈ bikes, ∀ var nom sd s, Spec.valueOf source var b = some (.uncertain nom sd s) → 0 ≤ sd

/-- **C58.** A table has one row for every variable; it holds the name (the LaTeX form if
asked for) and two cells for every bicycle, which show the value of the variable. -/
theorem C58_rows {enum : List String → List String} {source : String} {latex : Bool}
    {bikes : List TBike} {t : Table} (hsd : Spec.Deviations source bikes)
    (h : makeTable enum source latex bikes = .ok t) :
    List.Forall₂ (fun var row => row.length = 1 + 2 * bikes.length ∧
      ∃ (name : Text) (cells : List (List Text)), row = name :: cells.flatten ∧
        (if latex then toLatex var = .ok name else name = var.toList) ∧
        List.Forall₂ (fun b c => Spec.ShowsValue (Spec.valueOf source var b) c) bikes cells)
      t.allVariables t.tableData := by
  unfold makeTable at h
  cases hk : allKeys source bikes with
  | error e => simp [hk] at h
  | ok ks =>
    simp only [hk] at h
    split at h
    · cases h
    · rename_i data hdata
      injection h with h
      subst h
      refine (mapM_ok_forall₂ hdata).imp fun var row hrow => ?_
      unfold tableRow at hrow
      cases hn : (if latex then toLatex var else .ok var.toList : Except PyErr Text) with
      | error e => simp [hn] at hrow
      | ok name =>
        cases hc : bikes.mapM (tableCells source var) with
        | error e => simp [hn, hc] at hrow
        | ok cells =>
          simp only [hn, hc, Except.ok.injEq] at hrow
          subst hrow
          have hf : List.Forall₂ (fun b c => c.length = 2 ∧
              Spec.ShowsValue (Spec.valueOf source var b) c) bikes cells := by
            have hfc := mapM_ok_forall₂ hc
            clear hn hc hdata hk
            induction hfc with
            | nil => exact .nil
            | @cons b c bs cs hbc _ ih =>
              have hb := hsd b (by simp)
              obtain ⟨s1, s2⟩ := tableCells_spec source var b (hb var)
              refine .cons ?_ (ih fun b' hb' => hsd b' (List.mem_cons_of_mem _ hb'))
              by_cases hcr : Spec.Crashes (Spec.valueOf source var b)
              · rw [s1 hcr] at hbc; cases hbc
              · obtain ⟨a, c', e, hs⟩ := s2 hcr
                rw [e] at hbc
                cases hbc
                exact ⟨rfl, hs⟩
          refine ⟨?_, name, cells, rfl, ?_, hf.imp fun _ _ h => h.2⟩
          · have : cells.flatten.length = 2 * bikes.length :=
              flatten_length_two (hf.imp fun _ _ h => h.1)
            simp only [List.length_cons, this]
            omega
          · split_ifs at hn ⊢ with hl
            · exact hn
            · injection hn with hn
              exact hn.symm

/-- **C58 (when a table can be made).** Without LaTeX names the constructor succeeds if every
bicycle has the set of parameters and no value crashes `uround`, and raises UnboundLocalError if
one does.  Without the set of parameters it raises KeyError. -/
theorem C58_table_exists_iff {enum : List String → List String} (henum : Spec.Enumerates enum)
    (source : String) (bikes : List TBike) (hsd : Spec.Deviations source bikes) :
    ((∀ b ∈ bikes, (Dict.find? b.parameters source).isSome) →
      (∀ b ∈ bikes, ∀ var, ¬ Spec.Crashes (Spec.valueOf source var b)) →
      ∃ t, makeTable enum source false bikes = .ok t) ∧
    ((∀ b ∈ bikes, (Dict.find? b.parameters source).isSome) →
      (∃ b ∈ bikes, ∃ var, Spec.Crashes (Spec.valueOf source var b)) →
      makeTable enum source false bikes = .error .unboundLocal) ∧
    ((∃ b ∈ bikes, Dict.find? b.parameters source = none) →
      makeTable enum source false bikes = .error (.keyError source)) := by
  have hcells : ∀ var, ∀ b ∈ bikes, (∃ c, tableCells source var b = .ok c) ∨
      tableCells source var b = .error .unboundLocal := by
    intro var b hb
    obtain ⟨s1, s2⟩ := tableCells_spec source var b (hsd b hb var)
    by_cases hcr : Spec.Crashes (Spec.valueOf source var b)
    · exact Or.inr (s1 hcr)
    · obtain ⟨a, c, e, -⟩ := s2 hcr
      exact Or.inl ⟨_, e⟩
  have hrow : ∀ var, (∃ r, tableRow source false bikes var = .ok r) ∨
      tableRow source false bikes var = .error .unboundLocal := by
    intro var
    unfold tableRow
    simp only [Bool.false_eq_true, if_false]
    by_cases hex : ∃ b ∈ bikes, tableCells source var b = .error .unboundLocal
    · right
      rw [mapM_error (hcells var) hex]
    · left
      obtain ⟨out, ho⟩ := mapM_total (f := tableCells source var) (l := bikes) fun b hb =>
        (hcells var b hb).resolve_right fun h => hex ⟨b, hb, h⟩
      exact ⟨_, by rw [ho]⟩
  refine ⟨fun hs hc => ?_, fun hs hc => ?_, fun hn => ?_⟩
  · obtain ⟨ks, hks⟩ := allKeys_total hs
    unfold makeTable
    simp only [hks]
    obtain ⟨out, ho⟩ := mapM_total (f := tableRow source false bikes) (l := variableList enum ks) fun var _ => by
      unfold tableRow
      simp only [Bool.false_eq_true, if_false]
      obtain ⟨out, ho⟩ := mapM_total (f := tableCells source var) (l := bikes) fun b hb => by
        obtain ⟨a, c, e, -⟩ := (tableCells_spec source var b (hsd b hb var)).2 (hc b hb var)
        exact ⟨_, e⟩
      exact ⟨_, by rw [ho]⟩
    exact ⟨_, by rw [ho]⟩
  · obtain ⟨ks, hks⟩ := allKeys_total hs
    unfold makeTable
    simp only [hks]
    obtain ⟨b, hb, var, hcr⟩ := hc
    have hvar : var ∈ variableList enum ks := by
      unfold variableList
      rw [(List.perm_insertionSort _ _).mem_iff, (henum ks).2, (allKeys_ok hks).2]
      obtain ⟨p, hp⟩ := Option.isSome_iff_exists.1 (hs b hb)
      refine ⟨b, hb, p, hp, ?_⟩
      cases hv : Spec.valueOf source var b with
      | none => rw [hv] at hcr; exact hcr.elim
      | some v =>
        unfold Spec.valueOf at hv
        rw [hp] at hv
        exact (Dict.has_iff_mem_keys p var).1 (by simp only [Option.bind_some] at hv; simp [Dict.has, hv])
    rw [mapM_error (fun v _ => hrow v) ⟨var, hvar, ?_⟩]
    unfold tableRow
    simp only [Bool.false_eq_true, if_false]
    rw [mapM_error (hcells var) ⟨b, hb, (tableCells_spec source var b (hsd b hb var)).1 hcr⟩]
  · have : allKeys source bikes = .error (.keyError source) := by
      clear hcells hrow hsd henum
      induction bikes with
      | nil => simp at hn
      | cons b bs ih =>
        cases hb : Dict.find? b.parameters source with
        | none => simp [allKeys, hb]
        | some p =>
          have : ∃ c ∈ bs, Dict.find? c.parameters source = none := by
            obtain ⟨c, hc, h⟩ := hn
            rcases List.mem_cons.1 hc with rfl | hc
            · rw [hb] at h; cases h
            · exact ⟨c, hc, h⟩
          simp [allKeys, hb, ih this]
    unfold makeTable
    rw [this]

/-- Two bicycles for the examples: the second has a variable without uncertainty. -/
def exBikes : List TBike :=
  [⟨['A'], [("Benchmark", [("w", .uncertain 1.02 0.003 ['u']), ("c", .uncertain 0.08 0.001 ['v'])])]⟩,
   ⟨['B', 'b'], [("Benchmark", [("w", .plain ['1']), ("g", .plain ['9'])])]⟩]

/-- non-vacuity of C57 and C58 -/
example : ∃ t, makeTable List.dedup "Benchmark" false exBikes = .ok t ∧ Spec.Deviations "Benchmark" exBikes := by
  have hval : ∀ b ∈ exBikes, ∀ var nom sd s, Spec.valueOf "Benchmark" var b = some (.uncertain nom sd s) →
      sd = 0.003 ∨ sd = 0.001 := by
    intro b hb var nom sd s h
    simp only [exBikes, List.mem_cons, List.not_mem_nil, or_false] at hb
    rcases hb with rfl | rfl <;> simp only [Spec.valueOf, Dict.find?, if_true, Option.bind_some] at h <;>
      split_ifs at h <;> simp_all
  have hdev : Spec.Deviations "Benchmark" exBikes := by
    intro b hb var nom sd s h
    rcases hval b hb var nom sd s h with rfl | rfl <;> norm_num
  obtain ⟨t, ht⟩ := (C58_table_exists_iff enumerates_dedup "Benchmark" exBikes hdev).1
    (by intro b hb; simp only [exBikes, List.mem_cons, List.not_mem_nil, or_false] at hb
        rcases hb with rfl | rfl <;> rfl)
    (by
      intro b hb var hcr
      cases hv : Spec.valueOf "Benchmark" var b with
      | none => rw [hv] at hcr; exact hcr
      | some v =>
        rw [hv] at hcr
        cases v with
        | plain s => exact hcr
        | uncertain nom sd s =>
          have h2 := hcr.2
          rcases hval b hb var nom sd s hv with rfl | rfl <;> norm_num at h2)
  exact ⟨t, ht, hdev⟩

end BP
