import Mathlib.FieldTheory.IsAlgClosed.Basic
import Mathlib.Algebra.Polynomial.FieldDivision
import Mathlib.Analysis.Complex.Polynomial.Basic
import Verif.Lemmas.StableCheck
import Verif.Props.SortState

/-!
Different eigenvalues from the discriminant of the characteristic polynomial; polynomials in the square of the speed whose
coefficients are ranges.
-/

set_option linter.unusedSimpArgs false

namespace BP

open Spec Matrix Polynomial

/-- The discriminant of `a x^4 + b x^3 + c x^2 + d x + e`, for the proofs. -/
def disc4 {R : Type} [CommRing R] (a b c d e : R) : R :=
  256 * a ^ 3 * e ^ 3 - 192 * a ^ 2 * b * d * e ^ 2 - 128 * a ^ 2 * c ^ 2 * e ^ 2 + 144 * a ^ 2 * c * d ^ 2 * e -
  27 * a ^ 2 * d ^ 4 + 144 * a * b ^ 2 * c * e ^ 2 - 6 * a * b ^ 2 * d ^ 2 * e - 80 * a * b * c ^ 2 * d * e +
  18 * a * b * c * d ^ 3 + 16 * a * c ^ 4 * e - 4 * a * c ^ 3 * d ^ 2 - 27 * b ^ 4 * e ^ 2 + 18 * b ^ 3 * c * d * e -
  4 * b ^ 3 * d ^ 3 - 4 * b ^ 2 * c ^ 3 * e + b ^ 2 * c ^ 2 * d ^ 2

theorem disc4_double {R : Type} [CommRing R] (a b c d e x : R) (h : a * x ^ 4 + b * x ^ 3 + c * x ^ 2 + d * x + e = 0)
    (h' : 4 * a * x ^ 3 + 3 * b * x ^ 2 + 2 * c * x + d = 0) : disc4 a b c d e = 0 := by
  have hd : d = -(4 * a * x ^ 3 + 3 * b * x ^ 2 + 2 * c * x) := by linear_combination h'
  have he : e = 3 * a * x ^ 4 + 2 * b * x ^ 3 + c * x ^ 2 := by linear_combination h - x * h'
  rw [hd, he, disc4]
  ring

/-- A quartic with four different roots has a discriminant other than zero. -/
theorem disc4_ne (a b c d e : ℂ) (ha : a ≠ 0) (L : Fin 4 → ℂ) (hL : Function.Injective L)
    (hr : ∀ j, a * L j ^ 4 + b * L j ^ 3 + c * L j ^ 2 + d * L j + e = 0) : disc4 a b c d e ≠ 0 := by
  have n : ∀ i j : Fin 4, i ≠ j → L i - L j ≠ 0 := fun i j h => sub_ne_zero.2 fun k => h (hL k)
  obtain ⟨x, y, z, w, hx, hy, hz, hw⟩ : ∃ x y z w, L 0 = x ∧ L 1 = y ∧ L 2 = z ∧ L 3 = w := ⟨_, _, _, _, rfl, rfl, rfl, rfl⟩
  have h0 := hr 0
  have h1 := hr 1
  have h2 := hr 2
  have h3 := hr 3
  have n01 := n 0 1 (by decide)
  have n02 := n 0 2 (by decide)
  have n03 := n 0 3 (by decide)
  have n12 := n 1 2 (by decide)
  have n13 := n 1 3 (by decide)
  have n23 := n 2 3 (by decide)
  rw [hx, hy] at n01
  rw [hx, hz] at n02
  rw [hx, hw] at n03
  rw [hy, hz] at n12
  rw [hy, hw] at n13
  rw [hz, hw] at n23
  rw [hx] at h0
  rw [hy] at h1
  rw [hz] at h2
  rw [hw] at h3
  -- divided differences
  have k1 : a * (x ^ 3 + x ^ 2 * y + x * y ^ 2 + y ^ 3) + b * (x ^ 2 + x * y + y ^ 2) + c * (x + y) + d = 0 :=
    mul_left_cancel₀ n01 (by linear_combination h0 - h1)
  have k2 : a * (x ^ 3 + x ^ 2 * z + x * z ^ 2 + z ^ 3) + b * (x ^ 2 + x * z + z ^ 2) + c * (x + z) + d = 0 :=
    mul_left_cancel₀ n02 (by linear_combination h0 - h2)
  have k3 : a * (x ^ 3 + x ^ 2 * w + x * w ^ 2 + w ^ 3) + b * (x ^ 2 + x * w + w ^ 2) + c * (x + w) + d = 0 :=
    mul_left_cancel₀ n03 (by linear_combination h0 - h3)
  have l1 : a * (x ^ 2 + y ^ 2 + z ^ 2 + x * y + x * z + y * z) + b * (x + y + z) + c = 0 :=
    mul_left_cancel₀ n12 (by linear_combination k1 - k2)
  have l2 : a * (x ^ 2 + y ^ 2 + w ^ 2 + x * y + x * w + y * w) + b * (x + y + w) + c = 0 :=
    mul_left_cancel₀ n13 (by linear_combination k1 - k3)
  have hb : b = -a * (x + y + z + w) :=
    mul_left_cancel₀ n23 (by linear_combination l1 - l2)
  have hc : c = a * (x * y + x * z + x * w + y * z + y * w + z * w) := by rw [hb] at l1; linear_combination l1
  have hd : d = -a * (x * y * z + x * y * w + x * z * w + y * z * w) := by rw [hb, hc] at k1; linear_combination k1
  have he : e = a * (x * y * z * w) := by rw [hb, hc, hd] at h0; linear_combination h0
  have key : disc4 a b c d e = a ^ 6 * ((x - y) * (x - z) * (x - w) * (y - z) * (y - w) * (z - w)) ^ 2 := by
    rw [hb, hc, hd, he, disc4]
    ring
  rw [key]
  exact mul_ne_zero (pow_ne_zero _ ha) (pow_ne_zero _ (mul_ne_zero (mul_ne_zero (mul_ne_zero (mul_ne_zero (mul_ne_zero n01 n02)
    n03) n12) n13) n23))

theorem all_of_disc (A : Matrix (Fin 4) (Fin 4) ℂ) (a b c d e : ℂ) (ha : a ≠ 0)
    (hp : ∀ x, IsEigenvalue A x ↔ a * x ^ 4 + b * x ^ 3 + c * x ^ 2 + d * x + e = 0) (hd : disc4 a b c d e ≠ 0) :
    ∃ L, AllEigenvalues A L := by
  set p : ℂ[X] := C a * X ^ 4 + C b * X ^ 3 + C c * X ^ 2 + C d * X + C e with hpd
  have ev : ∀ x, p.eval x = a * x ^ 4 + b * x ^ 3 + c * x ^ 2 + d * x + e := fun x => by simp [hpd]
  have dv : ∀ x, p.derivative.eval x = 4 * a * x ^ 3 + 3 * b * x ^ 2 + 2 * c * x + d := fun x => by
    simp [hpd]; ring
  have hdeg : p.natDegree = 4 := by rw [hpd]; compute_degree!
  have h0 : p ≠ 0 := by
    intro h
    rw [h] at hdeg
    simp at hdeg
  have hcard : Multiset.card p.roots = 4 := by rw [IsAlgClosed.card_roots_eq_natDegree, hdeg]
  have hnod : p.roots.Nodup := by
    rw [Multiset.nodup_iff_count_le_one]
    intro x
    rw [count_roots]
    by_contra hc
    push Not at hc
    rw [one_lt_rootMultiplicity_iff_isRoot h0] at hc
    refine hd (disc4_double a b c d e x ?_ ?_)
    · rw [← ev]; exact hc.1
    · rw [← dv]; exact hc.2
  have hl : p.roots.toList.length = 4 := by rw [Multiset.length_toList, hcard]
  have hn : p.roots.toList.Nodup := by
    rw [← Multiset.coe_nodup, Multiset.coe_toList]; exact hnod
  refine ⟨fun j => p.roots.toList[(j : ℕ)]'(by rw [hl]; exact j.2), fun i j h => ?_, fun j => ?_⟩
  · exact Fin.ext (hn.getElem_inj_iff.1 h)
  · have hm := List.getElem_mem (l := p.roots.toList) (n := (j : ℕ)) (by rw [hl]; exact j.2)
    rw [Multiset.mem_toList, mem_roots h0, IsRoot, ev] at hm
    exact (hp _).2 hm

/-! ## Polynomials with ranges for coefficients -/

/-- The value of a polynomial, lowest coefficient first. -/
def pval : List ℝ → ℝ → ℝ
  | [], _ => 0
  | c :: cs, u => c + u * pval cs u

/-- The function is a polynomial with coefficients in the ranges. -/
def PHas (P : List Box) (f : ℝ → ℝ) : Prop := ∃ cs, List.Forall₂ Box.Has P cs ∧ ∀ u, f u = pval cs u

/-- Sum of polynomials, for the proofs. -/
def padd : List Box → List Box → List Box
  | [], Q => Q
  | P, [] => P
  | p :: P, q :: Q => (p + q) :: padd P Q

/-- Product of polynomials, for the proofs. -/
def pmul : List Box → List Box → List Box
  | [], _ => []
  | p :: P, Q => padd (Q.map (p * ·)) (Box.pt 0 :: pmul P Q)

theorem has_zero : (Box.pt 0).Has (0 : ℝ) := by have := Box.has_pt 0; push_cast at this; exact this

theorem PHas.add {P Q : List Box} {f h : ℝ → ℝ} (hP : PHas P f) (hQ : PHas Q h) : PHas (padd P Q) fun u => f u + h u := by
  obtain ⟨cs, h1, e1⟩ := hP
  obtain ⟨ds, h2, e2⟩ := hQ
  suffices H : ∃ es, List.Forall₂ Box.Has (padd P Q) es ∧ ∀ u, pval cs u + pval ds u = pval es u by
    obtain ⟨es, a, b⟩ := H
    exact ⟨es, a, fun u => by show f u + h u = _; rw [e1, e2, b]⟩
  clear e1 e2
  induction h1 generalizing Q ds with
  | nil => exact ⟨ds, by simpa [padd] using h2, fun u => by simp [pval]⟩
  | @cons p c P cs hp hP ih =>
    cases h2 with
    | nil => exact ⟨c :: cs, by simpa [padd] using ⟨hp, hP⟩, fun u => by simp [pval]⟩
    | @cons q d Q ds hq hQ =>
      obtain ⟨es, a, b⟩ := ih ds hQ
      exact ⟨(c + d) :: es, .cons (hp.add hq) a, fun u => by simp only [pval]; rw [← b]; ring⟩

theorem PHas.smul {p : Box} {c : ℝ} (hp : p.Has c) {Q : List Box} {h : ℝ → ℝ} (hQ : PHas Q h) :
    PHas (Q.map (p * ·)) fun u => c * h u := by
  obtain ⟨ds, h2, e2⟩ := hQ
  refine ⟨ds.map (c * ·), ?_, fun u => ?_⟩
  · clear e2
    induction h2 with
    | nil => exact .nil
    | cons hq hQ ih => exact .cons (hp.mul hq) ih
  · show c * h u = _
    rw [e2]
    clear e2 h2
    induction ds with
    | nil => simp [pval]
    | cons d ds ih => simp only [pval, List.map_cons]; rw [← ih]; ring

theorem PHas.mul {P Q : List Box} {f h : ℝ → ℝ} (hP : PHas P f) (hQ : PHas Q h) : PHas (pmul P Q) fun u => f u * h u := by
  obtain ⟨cs, h1, e1⟩ := hP
  have : PHas (pmul P Q) fun u => pval cs u * h u := by
    clear e1
    induction h1 with
    | nil => exact ⟨[], .nil, fun u => by simp [pval]⟩
    | @cons p c P cs hp hP ih =>
      obtain ⟨es, a, b⟩ := ih
      have hs : PHas (Box.pt 0 :: pmul P Q) fun u => u * (pval cs u * h u) :=
        ⟨0 :: es, .cons has_zero a, fun u => by
          have := b u
          simp only at this
          simp [pval, this]⟩
      have := (PHas.smul hp hQ).add hs
      refine (show (fun u => c * h u + u * (pval cs u * h u)) = fun u => pval (c :: cs) u * h u from ?_) ▸ this
      funext u
      simp only [pval]; ring
  refine (show (fun u => pval cs u * h u) = fun u => f u * h u from ?_) ▸ this
  funext u
  rw [e1]

/-- An upper bound of the polynomial between 0 and `h`, for the proofs. -/
def psup (h : ℚ) : List Box → ℚ
  | [] => 0
  | c :: cs => c.hi + max 0 (h * psup h cs)

theorem PHas.le_psup {P : List Box} {f : ℝ → ℝ} (hP : PHas P f) {h : ℚ} {u : ℝ} (h0 : 0 ≤ u) (h1 : u ≤ h) : f u ≤ psup h P := by
  obtain ⟨cs, ha, e⟩ := hP
  rw [e]
  clear e
  induction ha with
  | nil => simp [pval, psup]
  | @cons p c P cs hp hP ih =>
    simp only [pval, psup]
    push_cast
    refine add_le_add hp.2 ?_
    rcases le_total 0 ((psup h P : ℚ) : ℝ) with k | k
    · exact le_max_of_le_right ((mul_le_mul_of_nonneg_left ih h0).trans (mul_le_mul_of_nonneg_right h1 k))
    · exact le_max_of_le_left (mul_nonpos_of_nonneg_of_nonpos h0 (ih.trans k))

theorem PHas.negative {P : List Box} {f : ℝ → ℝ} (hP : PHas P f) {p : Box} {Q : List Box} (e : P = p :: Q) (hp : p.hi < 0)
    (hQ : ∀ q ∈ Q, q.hi ≤ 0) {u : ℝ} (h0 : 0 ≤ u) : f u < 0 := by
  subst e
  obtain ⟨cs, ha, e⟩ := hP
  rw [e]
  cases ha with
  | @cons _ c _ cs h1 h2 =>
    have hc : c < 0 := lt_of_le_of_lt h1.2 (by exact_mod_cast hp)
    have : pval cs u ≤ 0 := by
      clear e
      induction h2 with
      | nil => simp [pval]
      | @cons q d Q cs hq hQ' ih =>
        have hd : d ≤ 0 := hq.2.trans (by exact_mod_cast hQ q (by simp))
        have := ih fun q' hq' => hQ q' (List.mem_cons_of_mem _ hq')
        simp only [pval]
        nlinarith
    simp only [pval]
    nlinarith

/-- Expressions for the discriminant, for the proofs. -/
inductive PE where
  | var (i : ℕ)
  | num (q : ℚ)
  | add (a b : PE)
  | mul (a b : PE)

instance : Add PE := ⟨.add⟩
instance : Mul PE := ⟨.mul⟩

/-- The expression for ranges, for the proofs. -/
def PE.boxes (env : ℕ → List Box) : PE → List Box
  | .var i => env i
  | .num q => [Box.pt q]
  | .add a b => padd (a.boxes env) (b.boxes env)
  | .mul a b => pmul (a.boxes env) (b.boxes env)

/-- The value of the expression, for the proofs. -/
def PE.val (env : ℕ → ℝ) : PE → ℝ
  | .var i => env i
  | .num q => q
  | .add a b => a.val env + b.val env
  | .mul a b => a.val env * b.val env

theorem PE.has {B : ℕ → List Box} {F : ℝ → ℕ → ℝ} (h : ∀ i, PHas (B i) fun u => F u i) (e : PE) :
    PHas (e.boxes B) fun u => e.val (F u) := by
  induction e with
  | var i => exact h i
  | num q => exact ⟨[(q : ℝ)], .cons (Box.has_pt q) .nil, fun u => by simp [PE.val, pval]⟩
  | add a b iha ihb => exact iha.add ihb
  | mul a b iha ihb => exact iha.mul ihb

/-- The discriminant of `a x^4 + v m x^3 + c x^2 + v q x + r`, where `v^2 = w`. -/
def discExpr : PE :=
  let a : PE := .var 0
  let m : PE := .var 1
  let c : PE := .var 2
  let q : PE := .var 3
  let r : PE := .var 4
  let w : PE := .var 5
  let n : ℚ → PE := .num
  let m2 := m * m
  let q2 := q * q
  let c2 := c * c
  let r2 := r * r
  a * (a * (n 256 * (a * (r2 * r)) + (n (-192) * (w * (m * (q * r2))) + (n (-128) * (c2 * r2) + (n 144 * (c * (w * (q2 * r))) +
    n (-27) * (w * w * (q2 * q2)))))) +
    (n 144 * (w * (m2 * (c * r2))) + (n (-6) * (w * w * (m2 * (q2 * r))) + (n (-80) * (w * (m * (q * (c2 * r)))) +
    (n 18 * (w * w * (m * (c * (q2 * q)))) + (n 16 * (c2 * c2 * r) + n (-4) * (c2 * c * (w * q2)))))))) +
  (n (-27) * (w * w * (m2 * m2 * r2)) + (n 18 * (w * w * (m2 * m * (c * (q * r)))) + (n (-4) * (w * w * w * (m2 * m * (q2 * q))) +
    (n (-4) * (w * (m2 * (c2 * c * r))) + w * w * (m2 * (c2 * q2))))))

/-- The values of the letters of `discExpr`. -/
def discEnv {R : Type} (a m c q r w : R) : ℕ → R
  | 0 => a
  | 1 => m
  | 2 => c
  | 3 => q
  | 4 => r
  | _ => w

theorem PE.val_mul (env : ℕ → ℝ) (a b : PE) : (a * b).val env = a.val env * b.val env := rfl
theorem PE.val_add (env : ℕ → ℝ) (a b : PE) : (a + b).val env = a.val env + b.val env := rfl

theorem disc_expr (a v m c q r : ℝ) : disc4 a (v * m) c (v * q) r = discExpr.val (discEnv a m c q r (v ^ 2)) := by
  simp only [discExpr, PE.val_mul, PE.val_add, PE.val, discEnv]
  push_cast
  rw [disc4]
  ring

namespace StableCheck

/-- The coefficients of the characteristic polynomial in the square of the speed above `w0`, for the proof. -/
def discBoxes (E : Entries) (G : Box) (w0 : ℚ) : ℕ → List Box :=
  discEnv [mD E] [m3 E] [p0 E G + p2 E * Box.pt w0, p2 E] [q0 E G + q2 E * Box.pt w0, q2 E] [r0 E G + r1 E G * Box.pt w0, r1 E G]
    [Box.pt w0, Box.pt 1]

/-- The discriminant is negative at the squares of speeds from `w0` to `w0 + h`, for the proof. -/
def discPiece (E : Entries) (G : Box) (w0 h : ℚ) : Bool := decide (psup h (discExpr.boxes (discBoxes E G w0)) < 0)

/-- The coefficients of the discriminant above `w0` are negative, for the proof. -/
def discTail (E : Entries) (G : Box) (w0 : ℚ) : Bool :=
  match discExpr.boxes (discBoxes E G w0) with
  | [] => false
  | p :: Q => decide (p.hi < 0) && Q.all fun q => decide (q.hi ≤ 0)

/-- The discriminant of the characteristic polynomial. -/
def discOf (c : Canon) (g w : ℝ) : ℝ :=
  discExpr.val (discEnv c.M.det (mixed c.M c.C1) (g * mixed c.M c.K0 + (c.C1.det + mixed c.M c.K2) * w)
    (g * mixed c.C1 c.K0 + mixed c.C1 c.K2 * w) (g ^ 2 * c.K0.det + g * mixed c.K0 c.K2 * w) w)

theorem disc_has {E : Entries} {c : Canon} (H : E.Hold c) {G : Box} {g : ℝ} (hG : G.Has g) (w0 : ℚ) :
    PHas (discExpr.boxes (discBoxes E G w0)) fun u => discOf c g (w0 + u) := by
  obtain ⟨z1, z2, z3, z4, z5⟩ := (⟨H.z1, H.z2, H.z3, H.z4, H.z5⟩ : _ ∧ _ ∧ _ ∧ _ ∧ _)
  have hmD : (mD E).Has c.M.det := by
    rw [det_fin_two, z1]; exact (H.M00.mul H.M11).sub (H.M01.mul H.M01)
  have hm3 : (m3 E).Has (mixed c.M c.C1) := by
    have e : mixed c.M c.C1 = c.M 0 0 * c.C1 1 1 - c.M 0 1 * c.C1 1 0 - c.M 0 1 * c.C1 0 1 := by
      rw [mixed, z1, z5]; ring
    rw [e]; exact ((H.M00.mul H.C11).sub (H.M01.mul H.C10)).sub (H.M01.mul H.C01)
  have hp0 : (p0 E G).Has (g * mixed c.M c.K0) := by
    have e : mixed c.M c.K0 = c.M 0 0 * c.K0 1 1 + c.M 1 1 * c.K0 0 0 - c.M 0 1 * c.K0 0 1 - c.M 0 1 * c.K0 0 1 := by
      rw [mixed, z1, z2]
    rw [e]
    exact hG.mul ((((H.M00.mul H.K11).add (H.M11.mul H.K00)).sub (H.M01.mul H.K01)).sub (H.M01.mul H.K01))
  have hp2 : (p2 E).Has (c.C1.det + mixed c.M c.K2) := by
    have e : c.C1.det + mixed c.M c.K2 = -(c.C1 0 1 * c.C1 1 0) + (c.M 0 0 * c.K2 1 1 - c.M 0 1 * c.K2 0 1) := by
      rw [mixed, det_fin_two, z1, z3, z4, z5]; ring
    rw [e]; exact (H.C01.mul H.C10).neg.add ((H.M00.mul H.L11).sub (H.M01.mul H.L01))
  have hq0 : (q0 E G).Has (g * mixed c.C1 c.K0) := by
    have e : mixed c.C1 c.K0 = c.C1 1 1 * c.K0 0 0 - c.C1 0 1 * c.K0 0 1 - c.C1 1 0 * c.K0 0 1 := by
      rw [mixed, z2, z5]; ring
    rw [e]; exact hG.mul (((H.C11.mul H.K00).sub (H.C01.mul H.K01)).sub (H.C10.mul H.K01))
  have hq2 : (q2 E).Has (mixed c.C1 c.K2) := by
    have e : mixed c.C1 c.K2 = -(c.C1 1 0 * c.K2 0 1) := by rw [mixed, z3, z4, z5]; ring
    rw [e]; exact (H.C10.mul H.L01).neg
  have hr0 : (r0 E G).Has (g ^ 2 * c.K0.det) := by
    rw [det_fin_two, z2]
    have : (G * G).Has (g ^ 2) := by rw [sq]; exact hG.mul hG
    exact this.mul ((H.K00.mul H.K11).sub (H.K01.mul H.K01))
  have hr1 : (r1 E G).Has (g * mixed c.K0 c.K2) := by
    have e : mixed c.K0 c.K2 = c.K0 0 0 * c.K2 1 1 - c.K0 0 1 * c.K2 0 1 := by rw [mixed, z2, z3, z4]; ring
    rw [e]; exact hG.mul ((H.K00.mul H.L11).sub (H.K01.mul H.L01))
  have hw := Box.has_pt w0
  have one : (Box.pt 1).Has (1 : ℝ) := by have := Box.has_pt 1; push_cast at this; exact this
  refine PE.has (B := discBoxes E G w0) (F := fun u => discEnv c.M.det (mixed c.M c.C1)
    (g * mixed c.M c.K0 + (c.C1.det + mixed c.M c.K2) * (w0 + u)) (g * mixed c.C1 c.K0 + mixed c.C1 c.K2 * (w0 + u))
    (g ^ 2 * c.K0.det + g * mixed c.K0 c.K2 * (w0 + u)) (w0 + u)) (fun i => ?_) discExpr
  match i with
  | 0 => exact ⟨[_], .cons hmD .nil, fun u => by simp [discEnv, pval]⟩
  | 1 => exact ⟨[_], .cons hm3 .nil, fun u => by simp [discEnv, pval]⟩
  | 2 => exact ⟨[_, _], .cons (hp0.add (hp2.mul hw)) (.cons hp2 .nil), fun u => by simp only [discEnv, pval]; ring⟩
  | 3 => exact ⟨[_, _], .cons (hq0.add (hq2.mul hw)) (.cons hq2 .nil), fun u => by simp only [discEnv, pval]; ring⟩
  | 4 => exact ⟨[_, _], .cons (hr0.add (hr1.mul hw)) (.cons hr1 .nil), fun u => by simp only [discEnv, pval]; ring⟩
  | n + 5 => exact ⟨[_, _], .cons hw (.cons one .nil), fun u => by simp only [discEnv, pval]; ring⟩

theorem piece_negative {E : Entries} {c : Canon} (H : E.Hold c) {G : Box} {g : ℝ} (hG : G.Has g) {w0 k : ℚ}
    (h : discPiece E G w0 k = true) {w : ℝ} (hw : (w0 : ℝ) ≤ w) (hk : w ≤ w0 + k) : discOf c g w < 0 := by
  rw [discPiece, decide_eq_true_eq] at h
  have := (disc_has H hG w0).le_psup (h := k) (sub_nonneg.2 hw) (by linarith)
  simp only [add_sub_cancel] at this
  exact this.trans_lt (by exact_mod_cast h)

theorem tail_negative {E : Entries} {c : Canon} (H : E.Hold c) {G : Box} {g : ℝ} (hG : G.Has g) {w0 : ℚ}
    (h : discTail E G w0 = true) {w : ℝ} (hw : (w0 : ℝ) ≤ w) : discOf c g w < 0 := by
  rw [discTail] at h
  split at h
  · simp at h
  · rename_i p Q e
    simp only [Bool.and_eq_true, decide_eq_true_eq, List.all_eq_true] at h
    have := (disc_has H hG w0).negative e h.1 h.2 (sub_nonneg.2 hw)
    simpa using this

/-- The discriminant is positive at the squares of speeds from `w0` to `w0 + h`, for the proof. -/
def discAbove (E : Entries) (G : Box) (w0 h : ℚ) : Bool :=
  decide (psup h ((PE.num (-1) * discExpr).boxes (discBoxes E G w0)) < 0)

theorem piece_positive {E : Entries} {c : Canon} (H : E.Hold c) {G : Box} {g : ℝ} (hG : G.Has g) {w0 k : ℚ}
    (h : discAbove E G w0 k = true) {w : ℝ} (hw : (w0 : ℝ) ≤ w) (hk : w ≤ w0 + k) : 0 < discOf c g w := by
  rw [discAbove, decide_eq_true_eq] at h
  have hp : PHas ((PE.num (-1) * discExpr).boxes (discBoxes E G w0)) fun u => (-1 : ℝ) * discOf c g (w0 + u) :=
    PHas.mul (P := [Box.pt (-1)]) (f := fun _ => (-1 : ℝ)) ⟨[((-1 : ℚ) : ℝ)], .cons (Box.has_pt (-1)) .nil,
      fun u => by simp [pval]⟩ (disc_has H hG w0)
  have := hp.le_psup (h := k) (sub_nonneg.2 hw) (by linarith)
  simp only [add_sub_cancel] at this
  have h2 : ((psup k ((PE.num (-1) * discExpr).boxes (discBoxes E G w0)) : ℚ) : ℝ) < 0 := by exact_mod_cast h
  linarith

theorem disc_of {c : Canon} (hK : c.K2.det = 0) (g v : ℝ) :
    discOf c g (v ^ 2) = disc4 c.M.det (v * mixed c.M c.C1) (v ^ 2 * c.C1.det + mixed c.M (stiffness c v g))
      (v * mixed c.C1 (stiffness c v g)) (stiffness c v g).det := by
  rw [discOf, ← disc_expr]
  congr 1
  · simp only [mixed, stiffness, Matrix.add_apply, Matrix.smul_apply, smul_eq_mul]; ring
  · simp only [mixed, stiffness, Matrix.add_apply, Matrix.smul_apply, smul_eq_mul]; ring
  · rw [det_fin_two] at hK
    simp only [mixed, stiffness, det_fin_two, Matrix.add_apply, Matrix.smul_apply, smul_eq_mul]
    linear_combination -v ^ 4 * hK

theorem char_quartic {c : Canon} (g v : ℝ) (hM : c.M.det ≠ 0) (x : ℂ) :
    IsEigenvalue (toC (abA c.M c.C1 c.K0 c.K2 v g)) x ↔ ((c.M.det : ℝ) : ℂ) * x ^ 4 + ((v * mixed c.M c.C1 : ℝ) : ℂ) * x ^ 3 +
      ((v ^ 2 * c.C1.det + mixed c.M (stiffness c v g) : ℝ) : ℂ) * x ^ 2 +
      ((v * mixed c.C1 (stiffness c v g) : ℝ) : ℂ) * x + ((stiffness c v g).det : ℝ) = 0 := by
  rw [C02_eigenvalues_are_roots _ _ _ _ _ _ _ hM, ← pencil_quartic, pencil]

theorem all_of_ne {c : Canon} (hK : c.K2.det = 0) {g v : ℝ} (hM : c.M.det ≠ 0) (hn : discOf c g (v ^ 2) ≠ 0) :
    ∃ L, AllEigenvalues (toC (abA c.M c.C1 c.K0 c.K2 v g)) L := by
  rw [disc_of hK] at hn
  refine all_of_disc _ (c.M.det : ℝ) ((v * mixed c.M c.C1 : ℝ) : ℂ) ((v ^ 2 * c.C1.det + mixed c.M (stiffness c v g) : ℝ) : ℂ)
    ((v * mixed c.C1 (stiffness c v g) : ℝ) : ℂ) ((stiffness c v g).det : ℝ) (by exact_mod_cast hM) (char_quartic g v hM) ?_
  rw [disc4] at hn ⊢
  exact_mod_cast hn

/-- Four different eigenvalues and a zero discriminant exclude each other. -/
theorem not_all_of_eq {c : Canon} (hK : c.K2.det = 0) {g v : ℝ} (hM : c.M.det ≠ 0) (hn : discOf c g (v ^ 2) = 0) :
    ¬∃ L, AllEigenvalues (toC (abA c.M c.C1 c.K0 c.K2 v g)) L := by
  rintro ⟨L, hinj, hL⟩
  rw [disc_of hK] at hn
  have hz : disc4 ((c.M.det : ℝ) : ℂ) ((v * mixed c.M c.C1 : ℝ) : ℂ) ((v ^ 2 * c.C1.det + mixed c.M (stiffness c v g) : ℝ) : ℂ)
      ((v * mixed c.C1 (stiffness c v g) : ℝ) : ℂ) ((stiffness c v g).det : ℝ) = 0 := by
    rw [disc4] at hn ⊢
    exact_mod_cast hn
  have hr := fun j => (char_quartic g v hM (L j)).1 (hL j)
  exact disc4_ne _ _ _ _ _ (by exact_mod_cast hM) L hinj hr hz

end StableCheck

end BP
