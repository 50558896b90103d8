import Mathlib.Data.Nat.Factorization.Defs
import Mathlib.Analysis.Real.Sqrt
import Mathlib.Tactic.NormNum.Prime
import Mathlib.Tactic.LinearCombination
import Verif.Lemmas.EvalLinear

/-!
# Polynomials, evaluated by the kernel

A monomial is a number: the prime `p` stands for a variable, the product of numbers for the
product of monomials.  A polynomial is a list of monomials with integer coefficients.  The
prime 2 stands for a sine, 19 for the cosine; 3 and 5, 7 and 11, 13 and 17 stand for
quantities and their inverses.
-/

namespace BP.EL


/-- Monomials with coefficients. -/
abbrev Poly := List (ℕ × ℤ)

/-- The value of a monomial. -/
noncomputable def mono (x : ℕ → ℝ) (n : ℕ) : ℝ := if n = 0 then 0 else n.factorization.prod fun p k => x p ^ k

theorem mono_mul (x : ℕ → ℝ) (a b : ℕ) : mono x (a * b) = mono x a * mono x b := by
  unfold mono
  by_cases ha : a = 0
  · simp [ha]
  by_cases hb : b = 0
  · simp [hb]
  rw [if_neg (Nat.mul_ne_zero ha hb), if_neg ha, if_neg hb, Nat.factorization_mul ha hb,
    Finsupp.prod_add_index' (by simp) (by intros; rw [pow_add])]

theorem mono_one (x : ℕ → ℝ) : mono x 1 = 1 := by simp [mono]

theorem mono_prime (x : ℕ → ℝ) {p : ℕ} (hp : p.Prime) : mono x p = x p := by
  unfold mono
  rw [if_neg hp.ne_zero, hp.factorization, Finsupp.prod_single_index (by simp), pow_one]

/-- The value of a polynomial. -/
noncomputable def peval (x : ℕ → ℝ) (p : Poly) : ℝ := (p.map fun t => (t.2 : ℝ) * mono x t.1).sum

@[simp] theorem peval_nil (x : ℕ → ℝ) : peval x [] = 0 := rfl

@[simp] theorem peval_cons (x : ℕ → ℝ) (t : ℕ × ℤ) (p : Poly) :
    peval x (t :: p) = (t.2 : ℝ) * mono x t.1 + peval x p := by simp [peval]

/-- Is an integer zero? -/
def izero : ℤ → Bool
  | .ofNat n => Nat.beq n 0
  | .negSucc _ => false

theorem izero_iff (z : ℤ) : izero z = true ↔ z = 0 := by
  cases z with
  | ofNat n => simp [izero]
  | negSucc n => simp [izero]

/-- Put a term in front of, or into, a sorted list; `rest` adds the later terms. -/
def padd1 (a : ℕ) (x : ℤ) (rest : Poly → Poly) : Poly → Poly
  | [] => (a, x) :: rest []
  | (b, y) :: q => bif Nat.ble (a + 1) b then (a, x) :: rest ((b, y) :: q) else
      bif Nat.beq a b then (bif izero (Int.add x y) then rest q else (a, Int.add x y) :: rest q)
      else (b, y) :: padd1 a x rest q

/-- The sum. -/
def padd : Poly → Poly → Poly
  | [] => id
  | (a, x) :: p => padd1 a x (padd p)

theorem peval_padd1 (x : ℕ → ℝ) (a : ℕ) (k : ℤ) (rest : Poly → Poly) (p : Poly)
    (h : ∀ q, peval x (rest q) = peval x p + peval x q) (q : Poly) :
    peval x (padd1 a k rest q) = (k : ℝ) * mono x a + peval x p + peval x q := by
  induction q with
  | nil => simp [padd1, h]
  | cons t q ih =>
    obtain ⟨b, y⟩ := t
    simp only [padd1, Bool.cond_eq_ite, izero_iff, Nat.beq_eq]
    split_ifs with h1 h2 h3
    · simp [h, add_assoc]
    · subst h2
      rw [h, peval_cons]
      have : (k : ℝ) + y = 0 := by exact_mod_cast h3
      linear_combination (mono x a) * (-this)
    · subst h2
      rw [peval_cons, h, peval_cons]
      have : ((Int.add k y : ℤ) : ℝ) = (k : ℝ) + y := by
        rw [← Int.cast_add]; rfl
      simp only [this]
      ring
    · rw [peval_cons, ih, peval_cons]; ring

theorem peval_padd (x : ℕ → ℝ) (p q : Poly) : peval x (padd p q) = peval x p + peval x q := by
  induction p generalizing q with
  | nil => simp [padd]
  | cons t p ih =>
    obtain ⟨a, k⟩ := t
    rw [padd, peval_padd1 x a k (padd p) p ih, peval_cons]

/-- Multiply by a term. -/
def pscale (a : ℕ) (k : ℤ) : Poly → Poly
  | [] => []
  | (b, y) :: q => (Nat.mul a b, Int.mul k y) :: pscale a k q

theorem peval_pscale (x : ℕ → ℝ) (a : ℕ) (k : ℤ) (q : Poly) :
    peval x (pscale a k q) = (k : ℝ) * mono x a * peval x q := by
  induction q with
  | nil => simp [pscale]
  | cons t q ih =>
    obtain ⟨b, y⟩ := t
    rw [pscale, peval_cons, peval_cons, ih]
    have h1 : ((Int.mul k y : ℤ) : ℝ) = (k : ℝ) * y := by rw [← Int.cast_mul]; rfl
    have h2 : mono x (Nat.mul a b) = mono x a * mono x b := mono_mul x a b
    simp only [h1, h2]; ring

/-- Remove factors `d`. -/
def cancelBy (d : ℕ) : ℕ → ℕ → ℕ
  | 0, n => n
  | f + 1, n => bif Nat.beq (Nat.mod n d) 0 then cancelBy d f (Nat.div n d) else n

/-- The product of a quantity and its inverse is one; the squares of sine and cosine add to one. -/
structure Rels (x : ℕ → ℝ) : Prop where
  sq : x 2 ^ 2 = 1 - x 19 ^ 2
  inv3 : x 3 * x 5 = 1
  inv7 : x 7 * x 11 = 1
  inv13 : x 13 * x 17 = 1

theorem mono_cancelBy (x : ℕ → ℝ) (d : ℕ) (hd : mono x d = 1) (f n : ℕ) :
    mono x (cancelBy d f n) = mono x n := by
  induction f generalizing n with
  | zero => rfl
  | succ f ih =>
    simp only [cancelBy, Bool.cond_eq_ite, Nat.beq_eq]
    split_ifs with h
    · rw [ih]
      have : n = d * (n / d) := (Nat.mul_div_cancel' (Nat.dvd_of_mod_eq_zero h)).symm
      conv_rhs => rw [this, mono_mul, hd, one_mul]
      rfl
    · rfl

/-- Reduce a term. -/
def reduce (n : ℕ) (k : ℤ) : Poly :=
  let m := cancelBy 15 6 (cancelBy 77 6 (cancelBy 221 3 n))
  bif Nat.beq (Nat.mod m 4) 0 then [(Nat.div m 4, k), (Nat.mul (Nat.div m 4) 361, Int.neg k)] else [(m, k)]

theorem peval_reduce {x : ℕ → ℝ} (hx : Rels x) (n : ℕ) (k : ℤ) :
    peval x (reduce n k) = (k : ℝ) * mono x n := by
  have h15 : mono x 15 = 1 := by
    rw [show 15 = 3 * 5 from rfl, mono_mul, mono_prime x (by norm_num), mono_prime x (by norm_num), hx.inv3]
  have h77 : mono x 77 = 1 := by
    rw [show 77 = 7 * 11 from rfl, mono_mul, mono_prime x (by norm_num), mono_prime x (by norm_num), hx.inv7]
  have h221 : mono x 221 = 1 := by
    rw [show 221 = 13 * 17 from rfl, mono_mul, mono_prime x (by norm_num), mono_prime x (by norm_num), hx.inv13]
  have hm : mono x (cancelBy 15 6 (cancelBy 77 6 (cancelBy 221 3 n))) = mono x n := by
    rw [mono_cancelBy x 15 h15, mono_cancelBy x 77 h77, mono_cancelBy x 221 h221]
  unfold reduce
  rw [← hm]
  generalize cancelBy 15 6 (cancelBy 77 6 (cancelBy 221 3 n)) = m
  simp only [Bool.cond_eq_ite, Nat.beq_eq]
  split_ifs with h
  · have e : m = 2 * 2 * (m / 4) := (Nat.mul_div_cancel' (Nat.dvd_of_mod_eq_zero h)).symm
    have e1 : mono x m = x 2 ^ 2 * mono x (m / 4) := by
      conv_lhs => rw [e, mono_mul, mono_mul, mono_prime x Nat.prime_two]
      ring
    have e2 : mono x (Nat.mul (Nat.div m 4) 361) = mono x (m / 4) * x 19 ^ 2 := by
      rw [show Nat.mul (Nat.div m 4) 361 = m / 4 * (19 * 19) from rfl, mono_mul, mono_mul,
        mono_prime x (p := 19) (by norm_num)]
      ring
    have e3 : ((Int.neg k : ℤ) : ℝ) = -(k : ℝ) := by rw [← Int.cast_neg]; rfl
    rw [peval_cons, peval_cons, peval_nil]
    simp only [e2, e3]
    rw [e1, hx.sq, show Nat.div m 4 = m / 4 from rfl]
    ring
  · simp

/-- Reduce all terms. -/
def pnorm : Poly → Poly
  | [] => []
  | (a, k) :: p => padd (reduce a k) (pnorm p)

theorem peval_pnorm {x : ℕ → ℝ} (hx : Rels x) (p : Poly) : peval x (pnorm p) = peval x p := by
  induction p with
  | nil => rfl
  | cons t p ih =>
    obtain ⟨a, k⟩ := t
    rw [pnorm, peval_padd, peval_reduce hx, ih, peval_cons]

/-- The product, not reduced. -/
def pmul0 : Poly → Poly → Poly
  | [], _ => []
  | (a, k) :: p, q => padd (pscale a k q) (pmul0 p q)

/-- The product. -/
def pmul (p q : Poly) : Poly := pnorm (pmul0 p q)

theorem peval_pmul {x : ℕ → ℝ} (hx : Rels x) (p q : Poly) : peval x (pmul p q) = peval x p * peval x q := by
  unfold pmul
  rw [peval_pnorm hx]
  induction p with
  | nil => simp [pmul0]
  | cons t p ih =>
    obtain ⟨a, k⟩ := t
    rw [pmul0, peval_padd, peval_pscale, ih, peval_cons]; ring

/-- Powers. -/
def ppow (p : Poly) : ℕ → Poly
  | 0 => [(1, 1)]
  | k + 1 => pmul p (ppow p k)

theorem peval_ppow {x : ℕ → ℝ} (hx : Rels x) (p : Poly) (k : ℕ) : peval x (ppow p k) = peval x p ^ k := by
  induction k with
  | zero => simp [ppow, mono_one]
  | succ k ih => rw [ppow, peval_pmul hx, ih]; ring

/-- The inverse of a product of quantities that have one. -/
def inverse : ℕ → ℕ → Option ℕ
  | 0, _ => none
  | f + 1, n =>
    bif Nat.beq n 1 then some 1
    else bif Nat.beq (Nat.mod n 3) 0 then (inverse f (Nat.div n 3)).map (Nat.mul 5)
    else bif Nat.beq (Nat.mod n 5) 0 then (inverse f (Nat.div n 5)).map (Nat.mul 3)
    else bif Nat.beq (Nat.mod n 7) 0 then (inverse f (Nat.div n 7)).map (Nat.mul 11)
    else bif Nat.beq (Nat.mod n 11) 0 then (inverse f (Nat.div n 11)).map (Nat.mul 7)
    else bif Nat.beq (Nat.mod n 13) 0 then (inverse f (Nat.div n 13)).map (Nat.mul 17)
    else none

theorem mono_inverse {x : ℕ → ℝ} (hx : Rels x) (f n m : ℕ) (h : inverse f n = some m) :
    mono x n * mono x m = 1 := by
  induction f generalizing n m with
  | zero => simp [inverse] at h
  | succ f ih =>
    have stp : ∀ a b : ℕ, a.Prime → b.Prime → x a * x b = 1 → n % a = 0 →
        (inverse f (Nat.div n a)).map (Nat.mul b) = some m → mono x n * mono x m = 1 := by
      intro a b ha hb hab hn hm
      obtain ⟨r, hr, rfl⟩ := Option.map_eq_some_iff.mp hm
      have e : n = a * (n / a) := (Nat.mul_div_cancel' (Nat.dvd_of_mod_eq_zero hn)).symm
      have := ih _ _ hr
      rw [e, mono_mul, show Nat.mul b r = b * r from rfl, mono_mul, mono_prime x ha, mono_prime x hb]
      rw [show Nat.div n a = n / a from rfl] at this
      linear_combination (x a * x b) * this + hab
    simp only [inverse, Bool.cond_eq_ite, Nat.beq_eq] at h
    split_ifs at h with h1 h2 h3 h4 h5 h6
    · simp only [Option.some.injEq] at h
      subst h1 h; simp [mono_one]
    · exact stp 3 5 (by norm_num) (by norm_num) hx.inv3 h2 h
    · exact stp 5 3 (by norm_num) (by norm_num) (by rw [mul_comm]; exact hx.inv3) h3 h
    · exact stp 7 11 (by norm_num) (by norm_num) hx.inv7 h4 h
    · exact stp 11 7 (by norm_num) (by norm_num) (by rw [mul_comm]; exact hx.inv7) h5 h
    · exact stp 13 17 (by norm_num) (by norm_num) hx.inv13 h6 h

/-! ## Expressions as polynomials -/

/-- A table of polynomials: the bits of a number lead to its entry. -/
inductive Tr where
  | nil
  | leaf (p : Poly)
  | node (a b : Tr)

/-- The entry for a number. -/
def Tr.look : Tr → ℕ → Poly
  | nil, _ => []
  | leaf p, _ => p
  | node a b, l => bif Nat.beq (Nat.mod l 2) 0 then a.look (Nat.div l 2) else b.look (Nat.div l 2)

/-- A number. -/
def pconst (k : ℕ) : Poly := bif Nat.beq k 0 then [] else [(1, Int.ofNat k)]

/-- The sum of `p / 4 ^ i` and `q / 4 ^ j`, over `4 ^ (i + j)` unless `i = j`. -/
def paddq (p : Poly × ℕ) (q : Poly × ℕ) : Poly × ℕ :=
  bif Nat.beq p.2 q.2 then (padd p.1 q.1, p.2)
  else (padd (pscale 1 (Int.ofNat (Nat.pow 4 q.2)) p.1) (pscale 1 (Int.ofNat (Nat.pow 4 p.2)) q.1),
    Nat.add p.2 q.2)

/-- The quotient of a polynomial by one invertible term. -/
def pdivq (p : Poly × ℕ) (q : Poly × ℕ) : Option (Poly × ℕ) :=
  match q with
  | ([(m, k)], 0) => bif (izero (Int.sub k 1)).or (izero (Int.add k 1)) then
      (inverse 20 m).map fun r => (pmul p.1 [(r, k)], p.2) else none
  | _ => none

/-- Powers of roots: of 0 and 1 only. -/
def phpow (p : Poly × ℕ) (k : ℕ) : Option (Poly × ℕ) :=
  match p with
  | ([], 0) => bif Nat.beq k 0 then none else some ([], 0)
  | ([(m, c)], 0) => bif (Nat.beq m 1).and (izero (Int.sub c 1)) then some ([(1, 1)], 0) else none
  | _ => none

/-- Is an expression the pitch angle? -/
def isPitch : E → Bool
  | .z l => (Nat.beq l 5035).or (Nat.beq l 5084)
  | _ => false

/-- Is this the polynomial 0? -/
def zeroq : Option (Poly × ℕ) → Bool
  | some ([], _) => true
  | _ => false

/-- An expression as a polynomial over a power of 4, when the cells are the polynomials `T`. -/
def E.poly (T : Tr) : E → Option (Poly × ℕ)
  | .z l => bif isPitch (.z l) then none else some (T.look l, 0)
  | .n k => some (pconst k, 0)
  | .qt k => some (pconst k, 1)
  | .neg a => (a.poly T).map fun p => (pscale 1 (-1) p.1, p.2)
  | .add a b => (a.poly T).bind fun p => (b.poly T).map fun q => paddq p q
  | .sub a b => (a.poly T).bind fun p => (b.poly T).map fun q => paddq p (pscale 1 (-1) q.1, q.2)
  | .mul a b => (a.poly T).bind fun p => (b.poly T).map fun q => (pmul p.1 q.1, Nat.add p.2 q.2)
  | .div a b => (a.poly T).bind fun p => (b.poly T).bind fun q => pdivq p q
  | .pow a k => (a.poly T).map fun p => (ppow p.1 k, Nat.mul p.2 k)
  | .hpow a k => (a.poly T).bind fun p => phpow p k
  | .sin a => bif isPitch a then some ([(2, 1)], 0) else bif zeroq (a.poly T) then some ([], 0) else none
  | .cos a => bif isPitch a then some ([(19, 1)], 0) else bif zeroq (a.poly T) then some ([(1, 1)], 0) else none

theorem peval_pconst (x : ℕ → ℝ) (k : ℕ) : peval x (pconst k) = k := by
  unfold pconst
  simp only [Bool.cond_eq_ite, Nat.beq_eq]
  split_ifs with h
  · simp [h]
  · simp [mono_one]

theorem pscale_neg (x : ℕ → ℝ) (p : Poly) : peval x (pscale 1 (-1) p) = - peval x p := by
  rw [peval_pscale]; simp [mono_one]

theorem paddq_sound (x : ℕ → ℝ) (p q : Poly × ℕ) (a b : ℝ) (ha : a * 4 ^ p.2 = peval x p.1)
    (hb : b * 4 ^ q.2 = peval x q.1) : (a + b) * 4 ^ (paddq p q).2 = peval x (paddq p q).1 := by
  unfold paddq
  simp only [Bool.cond_eq_ite, Nat.beq_eq]
  split_ifs with h
  · rw [peval_padd, ← ha, ← hb, h]; ring
  · have e : ∀ i, ((Int.ofNat (Nat.pow 4 i) : ℤ) : ℝ) = 4 ^ i := by
      intro i; rw [show Nat.pow 4 i = 4 ^ i from rfl]; simp
    rw [peval_padd, peval_pscale, peval_pscale, e, e, mono_one, ← ha, ← hb,
      show Nat.add p.2 q.2 = p.2 + q.2 from rfl, pow_add]
    ring

theorem pdivq_sound {x : ℕ → ℝ} (hx : Rels x) (p q r : Poly × ℕ) (a b : ℝ) (ha : a * 4 ^ p.2 = peval x p.1)
    (hb : b * 4 ^ q.2 = peval x q.1) (hr : pdivq p q = some r) : a / b * 4 ^ r.2 = peval x r.1 := by
  unfold pdivq at hr
  split at hr
  · rename_i m k
    simp only [Bool.cond_eq_ite, Bool.or_eq_true, izero_iff] at hr
    split_ifs at hr with hk
    obtain ⟨n, hn, rfl⟩ := Option.map_eq_some_iff.mp hr
    have h1 := mono_inverse hx _ _ _ hn
    simp only [pow_zero, mul_one, peval_cons, peval_nil, add_zero] at hb
    have hkk : (k : ℝ) * k = 1 := by
      have : k = 1 ∨ k = -1 := by
        rcases hk with h | h
        · left; change k - 1 = 0 at h; omega
        · right; change k + 1 = 0 at h; omega
      rcases this with rfl | rfl <;> norm_num
    simp only [peval_pmul hx, peval_cons, peval_nil, add_zero, ← ha, hb]
    have hk0 : (k : ℝ) ≠ 0 := by rintro h; rw [h] at hkk; norm_num at hkk
    have hm0 : mono x m ≠ 0 := by rintro h; rw [h] at h1; norm_num at h1
    field_simp
    linear_combination (-a * (k * k)) * h1 - a * hkk
  · simp at hr

theorem phpow_sound {x : ℕ → ℝ} (p r : Poly × ℕ) (k : ℕ) (a : ℝ) (ha : a * 4 ^ p.2 = peval x p.1)
    (hr : phpow p k = some r) : √a ^ k * 4 ^ r.2 = peval x r.1 := by
  unfold phpow at hr
  split at hr
  · simp only [Bool.cond_eq_ite, Nat.beq_eq] at hr
    split_ifs at hr with hk
    simp only [Option.some.injEq] at hr
    subst hr
    simp at ha
    simp [ha, hk]
  · rename_i m c
    simp only [Bool.cond_eq_ite, Bool.and_eq_true, Nat.beq_eq, izero_iff] at hr
    split_ifs at hr with hk
    simp only [Option.some.injEq] at hr
    subst hr
    obtain ⟨rfl, h⟩ := hk
    have : c = 1 := by change c - 1 = 0 at h; omega
    subst this
    simp [mono_one] at ha
    simp [ha, mono_one]
  · simp at hr

/-- What is assumed of the cells: the pitch angle, and that the others are the table's polynomials. -/
structure Fits (x : ℕ → ℝ) (m : ℕ → ℝ) (T : Tr) (l : ℕ) : Prop where
  pitch : l = 5035 ∨ l = 5084 → Real.sin (m l) = x 2 ∧ Real.cos (m l) = x 19
  table : l ≠ 5035 → l ≠ 5084 → m l = peval x (T.look l)

theorem isPitch_sound (x m T d) (a : E) (hm : ∀ l, Nat.testBit d l = true → Fits x m T l)
    (ha : a.reads d = true) (h : isPitch a = true) :
    Real.sin (a.val real m) = x 2 ∧ Real.cos (a.val real m) = x 19 := by
  cases a with
  | z l =>
    simp only [isPitch, Bool.or_eq_true, Nat.beq_eq] at h
    exact (hm l (by simpa [E.reads] using ha)).pitch h
  | _ => simp [isPitch] at h

theorem zeroq_iff (p : Option (Poly × ℕ)) : zeroq p = true ↔ ∃ k, p = some ([], k) := by
  unfold zeroq
  split
  · simp
  · rename_i h
    simp only [Bool.false_eq_true, false_iff, not_exists]
    rintro k rfl
    exact h k rfl

/-- The value of an expression is that of its polynomial. -/
theorem poly_sound {x : ℕ → ℝ} (hx : Rels x) (m : ℕ → ℝ) (T : Tr) (d : ℕ)
    (hm : ∀ l, Nat.testBit d l = true → Fits x m T l) (e : E) (he : e.reads d = true)
    (p : Poly × ℕ) (hp : e.poly T = some p) : e.val real m * 4 ^ p.2 = peval x p.1 := by
  have zz : ∀ a : E, a.reads d = true →
      (∀ p : Poly × ℕ, a.poly T = some p → a.val real m * 4 ^ p.2 = peval x p.1) →
      zeroq (a.poly T) = true → a.val real m = 0 := by
    intro a _ iha hz
    obtain ⟨k, hk⟩ := (zeroq_iff _).mp hz
    have := iha _ hk
    simpa using this
  induction e generalizing p with
  | z l =>
    simp only [E.poly, Bool.cond_eq_ite] at hp
    split_ifs at hp with h
    simp only [isPitch, Bool.or_eq_true, Nat.beq_eq, not_or] at h
    simp only [Option.some.injEq] at hp
    subst hp
    simpa [E.val] using (hm l (by simpa [E.reads] using he)).table h.1 h.2
  | n k => simp only [E.poly, Option.some.injEq] at hp; subst hp; simp [E.val, real, peval_pconst]
  | qt k => simp only [E.poly, Option.some.injEq] at hp; subst hp; simp [E.val, real, peval_pconst]
  | neg a iha =>
    obtain ⟨q, hq, rfl⟩ := Option.map_eq_some_iff.mp hp
    have := iha he q hq
    simp only [pscale_neg, ← this, E.val, real]; ring
  | add a b iha ihb =>
    simp only [E.reads, Bool.and_eq_true] at he
    obtain ⟨q, hq, h⟩ := Option.bind_eq_some_iff.mp hp
    obtain ⟨r, hr, rfl⟩ := Option.map_eq_some_iff.mp h
    exact paddq_sound x q r _ _ (iha he.1 q hq) (ihb he.2 r hr)
  | sub a b iha ihb =>
    simp only [E.reads, Bool.and_eq_true] at he
    obtain ⟨q, hq, h⟩ := Option.bind_eq_some_iff.mp hp
    obtain ⟨r, hr, rfl⟩ := Option.map_eq_some_iff.mp h
    have := paddq_sound x q (pscale 1 (-1) r.1, r.2) _ (-b.val real m) (iha he.1 q hq)
      (by have := ihb he.2 r hr; simp only [pscale_neg, ← this]; ring)
    rw [← this]; simp only [E.val, real]; ring
  | mul a b iha ihb =>
    simp only [E.reads, Bool.and_eq_true] at he
    obtain ⟨q, hq, h⟩ := Option.bind_eq_some_iff.mp hp
    obtain ⟨r, hr, rfl⟩ := Option.map_eq_some_iff.mp h
    simp only [peval_pmul hx, ← iha he.1 q hq, ← ihb he.2 r hr, E.val, real,
      show Nat.add q.2 r.2 = q.2 + r.2 from rfl, pow_add]
    ring
  | div a b iha ihb =>
    simp only [E.reads, Bool.and_eq_true] at he
    obtain ⟨q, hq, h⟩ := Option.bind_eq_some_iff.mp hp
    obtain ⟨r, hr, h2⟩ := Option.bind_eq_some_iff.mp h
    exact pdivq_sound hx q r p _ _ (iha he.1 q hq) (ihb he.2 r hr) h2
  | pow a k iha =>
    obtain ⟨q, hq, rfl⟩ := Option.map_eq_some_iff.mp hp
    have := iha he q hq
    simp only [peval_ppow hx, ← this, E.val, real, show Nat.mul q.2 k = q.2 * k from rfl, pow_mul, mul_pow]
  | hpow a k iha =>
    obtain ⟨q, hq, h⟩ := Option.bind_eq_some_iff.mp hp
    exact phpow_sound q p k _ (iha he q hq) h
  | sin a iha =>
    simp only [E.poly, Bool.cond_eq_ite] at hp
    split_ifs at hp with h1 h2
    · simp only [Option.some.injEq] at hp
      subst hp
      have := (isPitch_sound x m T d a hm he h1).1
      have e : (E.sin a).val real m = Real.sin (a.val real m) := rfl
      rw [e, this]; simp [mono_prime x Nat.prime_two]
    · simp only [Option.some.injEq] at hp
      subst hp
      have e : (E.sin a).val real m = Real.sin (a.val real m) := rfl
      rw [e, zz a he (fun p => iha he p) h2]; simp
  | cos a iha =>
    simp only [E.poly, Bool.cond_eq_ite] at hp
    split_ifs at hp with h1 h2
    · simp only [Option.some.injEq] at hp
      subst hp
      have := (isPitch_sound x m T d a hm he h1).2
      have e : (E.cos a).val real m = Real.cos (a.val real m) := rfl
      rw [e, this]; simp [mono_prime x (p := 19) (by norm_num)]
    · simp only [Option.some.injEq] at hp
      subst hp
      have e : (E.cos a).val real m = Real.cos (a.val real m) := rfl
      rw [e, zz a he (fun p => iha he p) h2]; simp [mono_one]

/-! ## The check of a program -/

/-- Equal integers. -/
def ieq : ℤ → ℤ → Bool
  | .ofNat a, .ofNat b => Nat.beq a b
  | .negSucc a, .negSucc b => Nat.beq a b
  | _, _ => false

theorem ieq_eq {a b : ℤ} (h : ieq a b = true) : a = b := by
  cases a <;> cases b <;> simp_all [ieq]

/-- Equal polynomials. -/
def peq : Poly → Poly → Bool
  | [], [] => true
  | (a, j) :: p, (b, k) :: q => ((Nat.beq a b).and (ieq j k)).and (peq p q)
  | _, _ => false

theorem peq_eq {p q : Poly} (h : peq p q = true) : p = q := by
  induction p generalizing q with
  | nil => cases q with
    | nil => rfl
    | cons t q => simp [peq] at h
  | cons s p ih => cases q with
    | nil => obtain ⟨_, _⟩ := s; simp [peq] at h
    | cons t q =>
      obtain ⟨a, j⟩ := s
      obtain ⟨b, k⟩ := t
      simp only [peq, Bool.and_eq_true, Nat.beq_eq] at h
      rw [h.1.1, ieq_eq h.1.2, ih h.2]

/-- Is an expression the polynomial `q`? -/
def isPoly (T : Tr) (e : E) (q : Poly) : Bool :=
  match e.poly T with
  | none => false
  | some (p, k) => bif Nat.beq k 0 then peq p q else peq p (pscale 1 (Int.ofNat (Nat.pow 4 k)) q)

theorem isPoly_sound {x : ℕ → ℝ} (hx : Rels x) (m : ℕ → ℝ) (T : Tr) (d : ℕ)
    (hm : ∀ l, Nat.testBit d l = true → Fits x m T l) (e : E) (he : e.reads d = true) (q : Poly)
    (h : isPoly T e q = true) : e.val real m = peval x q := by
  unfold isPoly at h
  split at h
  · simp at h
  · rename_i p k hp
    have h0 := poly_sound hx m T d hm e he _ hp
    simp only [Bool.cond_eq_ite, Nat.beq_eq] at h
    split_ifs at h with hk
    · rw [hk] at h0; rw [peq_eq h] at h0; simpa using h0
    · rw [peq_eq h, peval_pscale, mono_one] at h0
      have e : ((Int.ofNat (Nat.pow 4 k) : ℤ) : ℝ) = 4 ^ k := by
        rw [show Nat.pow 4 k = 4 ^ k from rfl]; simp
      simp only [e, mul_one] at h0
      have : (4 : ℝ) ^ k ≠ 0 := by positivity
      exact mul_right_cancel₀ this (by rw [h0]; ring)

/-- Is the cell one of the quantities treated as variables? -/
def isAtom (atoms : List ℕ) (l : ℕ) : Bool := atoms.any (Nat.beq l)

/-- Is every assigned value the polynomial of the table? -/
def polyCheck (atoms : List ℕ) (T : Tr) : List (ℕ × E) → Bool
  | [] => true
  | s :: p => ((isAtom atoms s.1).or (isPoly T s.2 (T.look s.1))).and (polyCheck atoms T p)

/-- A property that passes from the cells read to the cell written holds of all cells. -/
theorem run_pred (P : ℕ → Prop) (p : List (ℕ × E)) (d d' : ℕ) (hd : definedCheck p d d' = true)
    (hstep : ∀ s ∈ p, ∀ e, s.2.reads e = true → (∀ l, Nat.testBit e l = true → P l) → P s.1)
    (h : ∀ l, Nat.testBit d l = true → P l) : ∀ l, Nat.testBit d' l = true → P l := by
  induction p generalizing d with
  | nil =>
    have e : d = d' := by simpa [definedCheck] using hd
    subst e; exact h
  | cons s p ih =>
    simp only [definedCheck, Bool.and_eq_true, Bool.not_eq_true'] at hd
    obtain ⟨⟨h1, -⟩, h3⟩ := hd
    refine ih _ h3 (fun s' hs' => hstep s' (List.mem_cons_of_mem _ hs')) ?_
    intro l hl
    have hl' : Nat.testBit (d ||| 1 <<< s.1) l = true := hl
    rw [Nat.testBit_or, Nat.testBit_shiftLeft] at hl'
    by_cases e : l = s.1
    · subst e; exact hstep s (List.mem_cons_self ..) d h1 h
    · rcases Bool.or_eq_true _ _ ▸ hl' with hh | hh
      · exact h l hh
      · exfalso
        simp only [Bool.and_eq_true, decide_eq_true_eq, Nat.testBit_one_eq_true_iff_self_eq_zero] at hh
        omega

theorem polyCheck_mem {atoms T p} (h : polyCheck atoms T p = true) {s : ℕ × E} (hs : s ∈ p) :
    isAtom atoms s.1 = true ∨ isPoly T s.2 (T.look s.1) = true := by
  induction p with
  | nil => simp at hs
  | cons s' p ih =>
    simp only [polyCheck, Bool.and_eq_true, Bool.or_eq_true] at h
    rcases List.mem_cons.mp hs with rfl | hs
    · exact h.1
    · exact ih h.2 hs

end BP.EL
