import Verif.Model.EvalLinear

/-!
# Checks of straight line programs, evaluated by the kernel, and what they establish
-/

namespace BP.EL

open E

/-- Is every variable an expression reads among the cells marked in `d`? -/
def E.reads (d : ℕ) : E → Bool
  | z l => Nat.testBit d l
  | n _ => true
  | qt _ => true
  | neg a => a.reads d
  | add a b => (a.reads d).and (b.reads d)
  | sub a b => (a.reads d).and (b.reads d)
  | mul a b => (a.reads d).and (b.reads d)
  | div a b => (a.reads d).and (b.reads d)
  | pow a _ => a.reads d
  | hpow a _ => a.reads d
  | sin a => a.reads d
  | cos a => a.reads d

/-- Does a program read marked cells only and write unmarked cells only, and does it end with
the cells `d'` marked, when every cell it writes is marked? -/
def definedCheck : List (ℕ × E) → ℕ → ℕ → Bool
  | [], d, d' => Nat.beq d d'
  | s :: p, d, d' => ((s.2.reads d).and (Nat.testBit d s.1).not).and
      (definedCheck p (Nat.lor d (Nat.shiftLeft 1 s.1)) d')

/-- A rule for computing degrees; 0 stands for no degree. -/
structure Grading where
  one : ℕ
  mul : ℕ → ℕ → ℕ
  div : ℕ → ℕ → ℕ
  pow : ℕ → ℕ → ℕ
  hpow : ℕ → ℕ → ℕ
  sin : ℕ → ℕ

/-- The degree of a cell in a table. -/
def look (t l : ℕ) : ℕ := Nat.land (Nat.shiftRight t (Nat.mul 8 l)) 255

/-- Equal degrees. -/
def same (x y : ℕ) : ℕ := bif Nat.beq x y then x else 0

/-- The degree of an expression. -/
def E.deg (G : Grading) (t : ℕ) : E → ℕ
  | z l => look t l
  | n _ => G.one
  | qt _ => G.one
  | neg a => a.deg G t
  | add a b => same (a.deg G t) (b.deg G t)
  | sub a b => same (a.deg G t) (b.deg G t)
  | mul a b => G.mul (a.deg G t) (b.deg G t)
  | div a b => G.div (a.deg G t) (b.deg G t)
  | pow a k => G.pow (a.deg G t) k
  | hpow a k => G.hpow (a.deg G t) k
  | sin a => G.sin (a.deg G t)
  | cos a => bif Nat.beq (G.sin (a.deg G t)) 0 then 0 else G.one

def isZero : E → Bool
  | n k => Nat.beq k 0
  | _ => false

/-- Does every assignment give its cell the degree of the table? -/
def degCheck (G : Grading) (t : ℕ) : List (ℕ × E) → Bool
  | [] => true
  | s :: p => ((isZero s.2).or ((Nat.beq (s.2.deg G t) (look t s.1)).and (Nat.ble 1 (s.2.deg G t)))).and
      (degCheck G t p)

/-- Exponents of a unit, 64 standing for exponent 0. -/
def unitGrading : Grading where
  one := 64
  mul x y := bif (Nat.beq x 0).or (Nat.beq y 0) then 0 else Nat.sub (Nat.add x y) 64
  div x y := bif (Nat.beq x 0).or (Nat.beq y 0) then 0 else Nat.sub (Nat.add x 64) y
  pow x k := bif Nat.beq x 0 then 0 else Nat.sub (Nat.add (Nat.mul x k) 64) (Nat.mul 64 k)
  hpow x k := bif (Nat.beq x 0).or (Nat.beq (Nat.mod x 2) 1) then 0 else
    Nat.sub (Nat.add (Nat.mul (Nat.div x 2) k) 64) (Nat.mul 32 k)
  sin x := bif Nat.beq x 64 then 64 else 0

/-- Signs: 1 for an even, 2 for an odd value. -/
def signGrading : Grading where
  one := 1
  mul x y := bif Nat.beq x 1 then y else bif Nat.beq y 1 then x else
    bif (Nat.beq x 2).and (Nat.beq y 2) then 1 else 0
  div x y := bif Nat.beq x 1 then y else bif Nat.beq y 1 then x else
    bif (Nat.beq x 2).and (Nat.beq y 2) then 1 else 0
  pow x k := bif Nat.beq x 1 then 1 else bif (Nat.beq x 2).and (Nat.beq (Nat.mod k 2) 0) then 1
    else bif Nat.beq x 2 then 2 else 0
  hpow x _ := bif Nat.beq x 1 then 1 else 0
  sin x := x


/-- What an expression is known to be: 1 for zero, 2 for one, 0 for nothing. -/
def E.cst (t : ℕ) : E → ℕ
  | z l => look t l
  | n k => bif Nat.beq k 0 then 1 else bif Nat.beq k 1 then 2 else 0
  | qt _ => 0
  | neg a => bif Nat.beq (a.cst t) 1 then 1 else 0
  | add a b => bif Nat.beq (b.cst t) 1 then a.cst t else
      bif Nat.beq (a.cst t) 1 then b.cst t else 0
  | sub a b => bif Nat.beq (b.cst t) 1 then a.cst t else
      bif (Nat.beq (a.cst t) 2).and (Nat.beq (b.cst t) 2) then 1 else 0
  | mul a b => bif (Nat.beq (a.cst t) 1).or (Nat.beq (b.cst t) 1) then 1 else
      bif (Nat.beq (a.cst t) 2).and (Nat.beq (b.cst t) 2) then 2 else 0
  | div a b => bif Nat.beq (a.cst t) 1 then 1 else bif Nat.beq (b.cst t) 2 then a.cst t else 0
  | pow a k => bif Nat.beq k 0 then 0 else a.cst t
  | hpow a k => bif Nat.beq k 0 then 0 else a.cst t
  | sin a => bif Nat.beq (a.cst t) 1 then 1 else 0
  | cos a => bif Nat.beq (a.cst t) 1 then 2 else 0

/-- Is every assigned value what the table says it is known to be? -/
def cstCheck (t : ℕ) : List (ℕ × E) → Bool
  | [] => true
  | s :: p => ((Nat.beq (look t s.1) 0).or (Nat.beq (s.2.cst t) (look t s.1))).and (cstCheck t p)

/-! ## Programs that read what they have written -/

variable {F F' : Type}

/-- A relation between the cells of two runs, kept by every statement, holds at the end. -/
theorem run_rel (O : Arith F) (O' : Arith F') (R : ℕ → F → F' → Prop) (p : List (ℕ × E))
    (hstep : ∀ s ∈ p, ∀ (d : ℕ) (m : ℕ → F) (m' : ℕ → F'), s.2.reads d = true →
      (∀ l, Nat.testBit d l = true → R l (m l) (m' l)) → R s.1 (s.2.val O m) (s.2.val O' m'))
    (d d' : ℕ) (hd : definedCheck p d d' = true) (m : ℕ → F) (m' : ℕ → F')
    (h : ∀ l, Nat.testBit d l = true → R l (m l) (m' l)) :
    ∀ l, Nat.testBit d' l = true → R l (run O p m l) (run O' p m' l) := by
  induction p generalizing d m m' with
  | nil =>
    have e : d = d' := by simpa [definedCheck] using hd
    subst e; simpa [run] using h
  | cons s p ih =>
    simp only [definedCheck, Bool.and_eq_true, Bool.not_eq_true'] at hd
    obtain ⟨⟨h1, -⟩, h3⟩ := hd
    refine ih (fun s' hs' => hstep s' (List.mem_cons_of_mem _ hs')) _ h3 (step O m s) (step O' m' s) ?_
    intro l hl
    have hl' : Nat.testBit (d ||| 1 <<< s.1) l = true := hl
    rw [Nat.testBit_or, Nat.testBit_shiftLeft] at hl'
    by_cases e : l = s.1
    · subst e
      simpa [step] using hstep s (List.mem_cons_self ..) d m m' h1 h
    · have : Nat.testBit d l = true := by
        rcases Bool.or_eq_true _ _ ▸ hl' with h | h
        · exact h
        · exfalso
          simp only [Bool.and_eq_true, decide_eq_true_eq, Nat.testBit_one_eq_true_iff_self_eq_zero] at h
          omega
      simpa [step, e] using h l this

/-- Expressions have one value on memories that agree on what is read. -/
theorem val_congr (O : Arith F) (d : ℕ) (e : E) (m m' : ℕ → F) (hr : e.reads d = true)
    (h : ∀ l, Nat.testBit d l = true → m l = m' l) : e.val O m = e.val O m' := by
  induction e <;> simp_all [E.reads, E.val]

/-- Cells that are marked at the start keep their value. -/
theorem run_keep (O : Arith F) (p : List (ℕ × E)) (d d' : ℕ) (hd : definedCheck p d d' = true)
    (m : ℕ → F) (l : ℕ) (hl : Nat.testBit d l = true) : run O p m l = m l := by
  induction p generalizing d m with
  | nil => rfl
  | cons s p ih =>
    simp only [definedCheck, Bool.and_eq_true, Bool.not_eq_true'] at hd
    obtain ⟨⟨-, h2⟩, h3⟩ := hd
    have e : l ≠ s.1 := by rintro rfl; rw [h2] at hl; exact absurd hl (by decide)
    have hl2 : Nat.testBit (d ||| 1 <<< s.1) l = true := by simp [hl]
    have := ih _ h3 (step O m s) hl2
    rw [show run O (s :: p) m l = run O p (step O m s) l from rfl, this]
    simp [step, e]

/-- At the end every assignment holds as an equation. -/
theorem run_equation (O : Arith F) (p : List (ℕ × E)) (d d' : ℕ) (hd : definedCheck p d d' = true)
    (m : ℕ → F) (s : ℕ × E) (hs : s ∈ p) : run O p m s.1 = s.2.val O (run O p m) := by
  induction p generalizing d m with
  | nil => simp at hs
  | cons s' p ih =>
    have hd' := hd
    simp only [definedCheck, Bool.and_eq_true, Bool.not_eq_true'] at hd
    obtain ⟨⟨h1, h2⟩, h3⟩ := hd
    rcases List.mem_cons.mp hs with rfl | hs
    · have hl2 : Nat.testBit (d ||| 1 <<< s.1) s.1 = true := by simp
      have hk := run_keep O p _ _ h3 (step O m s) s.1 hl2
      rw [show run O (s :: p) m = run O p (step O m s) from rfl, hk]
      simp only [step, Function.update_self]
      refine val_congr O d _ _ _ h1 fun l hl => ?_
      exact (run_keep O (s :: p) d d' hd' m l hl).symm
    · exact ih _ h3 (step O m s') hs

/-! ## Degrees -/

/-- The factors `act` multiply as the rule for degrees says. -/
structure IsAction (G : Grading) (act : ℕ → ℝ) : Prop where
  one : act G.one = 1
  one_ne : G.one ≠ 0
  mul : ∀ x y, G.mul x y ≠ 0 → x ≠ 0 ∧ y ≠ 0 ∧ act (G.mul x y) = act x * act y
  div : ∀ x y, G.div x y ≠ 0 → x ≠ 0 ∧ y ≠ 0 ∧ act (G.div x y) = act x / act y
  pow : ∀ x k, G.pow x k ≠ 0 → x ≠ 0 ∧ act (G.pow x k) = act x ^ k
  hpow : ∀ x k, G.hpow x k ≠ 0 → x ≠ 0 ∧ ∀ v, √(act x * v) ^ k = act (G.hpow x k) * √v ^ k
  sin : ∀ x, G.sin x ≠ 0 → x ≠ 0 ∧ ∀ v, Real.sin (act x * v) = act (G.sin x) * Real.sin v ∧
    Real.cos (act x * v) = Real.cos v

/-- An expression is multiplied by the factor of its degree. -/
theorem deg_sound {G : Grading} {act : ℕ → ℝ} (hG : IsAction G act) (t d : ℕ) (m m' : ℕ → ℝ) (e : E)
    (hr : e.reads d = true) (hd : e.deg G t ≠ 0)
    (h : ∀ l, Nat.testBit d l = true → m' l = act (look t l) * m l) :
    e.val real m' = act (e.deg G t) * e.val real m := by
  have hsame : ∀ x y, same x y ≠ 0 → x = y ∧ same x y = x ∧ x ≠ 0 := by
    intro x y hxy
    unfold same at hxy ⊢
    cases hb : Nat.beq x y
    · simp [hb] at hxy
    · rw [hb] at hxy
      exact ⟨Nat.eq_of_beq_eq_true hb, rfl, hxy⟩
  induction e with
  | z l => exact h l hr
  | n k => simp [E.val, E.deg, hG.one]
  | qt k => simp [E.val, E.deg, hG.one]
  | neg a ih => simp only [E.val, E.deg, real] at *; rw [ih hr hd]; ring
  | add a b iha ihb =>
    simp only [E.reads, Bool.and_eq_true] at hr
    obtain ⟨h1, h2, h3⟩ := hsame _ _ hd
    simp only [E.val, E.deg] at *
    rw [iha hr.1 h3, ihb hr.2 (h1 ▸ h3), h2, ← h1]
    simp only [real]; ring
  | sub a b iha ihb =>
    simp only [E.reads, Bool.and_eq_true] at hr
    obtain ⟨h1, h2, h3⟩ := hsame _ _ hd
    simp only [E.val, E.deg] at *
    rw [iha hr.1 h3, ihb hr.2 (h1 ▸ h3), h2, ← h1]
    simp only [real]; ring
  | mul a b iha ihb =>
    simp only [E.reads, Bool.and_eq_true] at hr
    obtain ⟨h1, h2, h3⟩ := hG.mul _ _ hd
    simp only [E.val, E.deg] at *
    rw [iha hr.1 h1, ihb hr.2 h2, h3]
    simp only [real]; ring
  | div a b iha ihb =>
    simp only [E.reads, Bool.and_eq_true] at hr
    obtain ⟨h1, h2, h3⟩ := hG.div _ _ hd
    simp only [E.val, E.deg] at *
    rw [iha hr.1 h1, ihb hr.2 h2, h3]
    simp only [real]; rw [mul_div_mul_comm]
  | pow a k ih =>
    obtain ⟨h1, h2⟩ := hG.pow _ _ hd
    simp only [E.val, E.deg, real] at *
    rw [ih hr h1, h2, mul_pow]
  | hpow a k ih =>
    obtain ⟨h1, h2⟩ := hG.hpow _ _ hd
    simp only [E.val, E.deg, real] at *
    rw [ih hr h1, h2]
  | sin a ih =>
    obtain ⟨h1, h2⟩ := hG.sin _ hd
    simp only [E.val, E.deg, real] at *
    rw [ih hr h1, (h2 _).1]
  | cos a ih =>
    have h0 : G.sin (a.deg G t) ≠ 0 := by
      intro h0; simp [E.deg, h0] at hd
    have he : (E.cos a).deg G t = G.one := by
      have : Nat.beq (G.sin (a.deg G t)) 0 = false := by
        cases hb : Nat.beq (G.sin (a.deg G t)) 0
        · rfl
        · exact absurd (Nat.eq_of_beq_eq_true hb) h0
      simp [E.deg, this]
    obtain ⟨h1, h2⟩ := hG.sin _ h0
    rw [he, hG.one, one_mul]
    simp only [E.val, real] at *
    rw [ih hr h1, (h2 _).2]

theorem degCheck_mem {G : Grading} {t : ℕ} {p : List (ℕ × E)} (h : degCheck G t p = true) (s : ℕ × E)
    (hs : s ∈ p) : isZero s.2 = true ∨ s.2.deg G t = look t s.1 ∧ s.2.deg G t ≠ 0 := by
  induction p with
  | nil => simp at hs
  | cons s' p ih =>
    simp only [degCheck, Bool.and_eq_true, Bool.or_eq_true] at h
    rcases List.mem_cons.mp hs with rfl | hs
    · rcases h.1 with h | ⟨h, h'⟩
      · exact Or.inl h
      · exact Or.inr ⟨Nat.eq_of_beq_eq_true h, by have := Nat.le_of_ble_eq_true h'; omega⟩
    · exact ih h.2 hs

/-- Changing the cells at the start by the factors of their degrees changes all cells so. -/
theorem run_graded {G : Grading} {act : ℕ → ℝ} (hG : IsAction G act) (t : ℕ) (p : List (ℕ × E))
    (hp : degCheck G t p = true) (d d' : ℕ) (hd : definedCheck p d d' = true) (m m' : ℕ → ℝ)
    (h : ∀ l, Nat.testBit d l = true → m' l = act (look t l) * m l) :
    ∀ l, Nat.testBit d' l = true → run real p m' l = act (look t l) * run real p m l := by
  refine run_rel real real (fun l x x' => x' = act (look t l) * x) p ?_ d d' hd m m' h
  intro s hs d m m' hr h
  rcases degCheck_mem hp s hs with hz | ⟨h1, h2⟩
  · have : ∃ k, s.2 = .n k ∧ k = 0 := by
      cases he : s.2 <;> simp [he, isZero] at hz
      exact ⟨_, rfl, hz⟩
    obtain ⟨k, hk, rfl⟩ := this
    simp [hk, E.val, real]
  · rw [← h1]
    exact deg_sound hG t d m m' s.2 hr h2 h

/-! ## Known values -/

/-- What the codes 1 and 2 say. -/
def Known (c : ℕ) (x : ℝ) : Prop := (c = 1 → x = 0) ∧ (c = 2 → x = 1)

theorem cst_sound (t d : ℕ) (m : ℕ → ℝ) (e : E) (hr : e.reads d = true)
    (h : ∀ l, Nat.testBit d l = true → Known (look t l) (m l)) : Known (e.cst t) (e.val real m) := by
  induction e with
  | z l => exact h l hr
  | n k =>
    simp only [E.cst, E.val, real, Bool.cond_eq_ite, Nat.beq_eq]
    unfold Known
    split_ifs with h1 h2 <;> simp_all
  | qt k => simp [E.cst, Known]
  | neg a ih =>
    have ih := ih hr
    simp only [E.cst, E.val, real, Bool.cond_eq_ite, Nat.beq_eq, Known] at ih ⊢
    split_ifs with h1 <;> simp_all
  | add a b iha ihb =>
    simp only [E.reads, Bool.and_eq_true] at hr
    have iha := iha hr.1
    have ihb := ihb hr.2
    simp only [E.cst, E.val, real, Bool.cond_eq_ite, Nat.beq_eq, Known] at iha ihb ⊢
    split_ifs with h1 h2 <;> simp_all
  | sub a b iha ihb =>
    simp only [E.reads, Bool.and_eq_true] at hr
    have iha := iha hr.1
    have ihb := ihb hr.2
    simp only [E.cst, E.val, real, Bool.cond_eq_ite, Bool.and_eq_true, Nat.beq_eq, Known] at iha ihb ⊢
    split_ifs with h1 h2 <;> simp_all
  | mul a b iha ihb =>
    simp only [E.reads, Bool.and_eq_true] at hr
    have iha := iha hr.1
    have ihb := ihb hr.2
    simp only [E.cst, E.val, real, Bool.cond_eq_ite, Bool.or_eq_true, Bool.and_eq_true, Nat.beq_eq,
      Known] at iha ihb ⊢
    split_ifs with h1 h2
    · rcases h1 with h1 | h1 <;> simp_all
    · simp_all
    · simp
  | div a b iha ihb =>
    simp only [E.reads, Bool.and_eq_true] at hr
    have iha := iha hr.1
    have ihb := ihb hr.2
    simp only [E.cst, E.val, real, Bool.cond_eq_ite, Nat.beq_eq, Known] at iha ihb ⊢
    split_ifs with h1 h2 <;> simp_all
  | pow a k ih =>
    have ih := ih hr
    simp only [E.cst, E.val, real, Bool.cond_eq_ite, Nat.beq_eq, Known] at ih ⊢
    split_ifs with h1
    · simp
    · exact ⟨fun h => by rw [ih.1 h]; exact zero_pow h1, fun h => by rw [ih.2 h]; exact one_pow _⟩
  | hpow a k ih =>
    have ih := ih hr
    simp only [E.cst, E.val, real, Bool.cond_eq_ite, Nat.beq_eq, Known] at ih ⊢
    split_ifs with h1
    · simp
    · exact ⟨fun h => by rw [ih.1 h, Real.sqrt_zero]; exact zero_pow h1,
        fun h => by rw [ih.2 h, Real.sqrt_one]; exact one_pow _⟩
  | sin a ih =>
    have ih := ih hr
    simp only [E.cst, E.val, real, Bool.cond_eq_ite, Nat.beq_eq, Known] at ih ⊢
    split_ifs with h1 <;> simp_all
  | cos a ih =>
    have ih := ih hr
    simp only [E.cst, E.val, real, Bool.cond_eq_ite, Nat.beq_eq, Known] at ih ⊢
    split_ifs with h1 <;> simp_all

theorem cstCheck_mem {t : ℕ} {p : List (ℕ × E)} (h : cstCheck t p = true) (s : ℕ × E)
    (hs : s ∈ p) : look t s.1 = 0 ∨ s.2.cst t = look t s.1 := by
  induction p with
  | nil => simp at hs
  | cons s' p ih =>
    simp only [cstCheck, Bool.and_eq_true, Bool.or_eq_true] at h
    rcases List.mem_cons.mp hs with rfl | hs
    · exact h.1.imp Nat.eq_of_beq_eq_true Nat.eq_of_beq_eq_true
    · exact ih h.2 hs

/-- The cells hold what is known of them. -/
theorem run_known (t : ℕ) (p : List (ℕ × E)) (hp : cstCheck t p = true) (d d' : ℕ)
    (hd : definedCheck p d d' = true) (m : ℕ → ℝ)
    (h : ∀ l, Nat.testBit d l = true → Known (look t l) (m l)) :
    ∀ l, Nat.testBit d' l = true → Known (look t l) (run real p m l) := by
  refine run_rel real real (fun l x _ => Known (look t l) x) p ?_ d d' hd m m h
  intro s hs d m m' hr h
  rcases cstCheck_mem hp s hs with h0 | h0
  · rw [h0]; simp [Known]
  · rw [← h0]; exact cst_sound t d m s.2 hr h

/-! ## Units and signs -/

/-- Multiplying a unit by `c > 0`. -/
theorem unit_action {c : ℝ} (hc : 0 < c) :
    IsAction unitGrading (fun x => c ^ ((x : ℤ) - 64)) := by
  have hc0 : c ≠ 0 := hc.ne'
  constructor
  · simp [unitGrading]
  · simp [unitGrading]
  · intro x y h
    simp only [unitGrading, Bool.cond_eq_ite, Bool.or_eq_true, Nat.beq_eq] at h ⊢
    split_ifs at h ⊢ with h1
    · exact absurd rfl h
    · push Not at h1
      refine ⟨h1.1, h1.2, ?_⟩
      rw [← zpow_add₀ hc0]
      congr 1
      simp only [Nat.sub_eq, Nat.add_eq] at h ⊢
      omega
  · intro x y h
    simp only [unitGrading, Bool.cond_eq_ite, Bool.or_eq_true, Nat.beq_eq] at h ⊢
    split_ifs at h ⊢ with h1
    · exact absurd rfl h
    · push Not at h1
      refine ⟨h1.1, h1.2, ?_⟩
      rw [← zpow_sub₀ hc0]
      congr 1
      simp only [Nat.sub_eq, Nat.add_eq] at h ⊢
      omega
  · intro x k h
    simp only [unitGrading, Bool.cond_eq_ite, Nat.beq_eq] at h ⊢
    split_ifs at h ⊢ with h1
    · exact absurd rfl h
    · refine ⟨h1, ?_⟩
      rw [← zpow_natCast, ← zpow_mul]
      congr 1
      simp only [Nat.sub_eq, Nat.add_eq, Nat.mul_eq] at h ⊢
      rw [Nat.cast_sub (by omega)]
      push_cast; ring
  · intro x k h
    simp only [unitGrading, Bool.cond_eq_ite, Bool.or_eq_true, Nat.beq_eq] at h ⊢
    split_ifs at h ⊢ with h1
    · exact absurd rfl h
    · push Not at h1
      refine ⟨h1.1, fun v => ?_⟩
      simp only [Nat.sub_eq, Nat.add_eq, Nat.mul_eq] at h h1 ⊢
      obtain ⟨y, rfl⟩ : ∃ y, x = 2 * y := ⟨x / 2, by have := h1.2; change x % 2 ≠ 1 at this; omega⟩
      have e1 : (2 * y) / 2 = y := by omega
      have e2 : Nat.div (2 * y) 2 = y := e1
      rw [e2] at h ⊢
      have e3 : c ^ (((2 * y : ℕ) : ℤ) - 64) = (c ^ ((y : ℤ) - 32)) ^ 2 := by
        rw [← zpow_natCast, ← zpow_mul]; congr 1; push_cast; ring
      rw [e3, Real.sqrt_mul (sq_nonneg _), Real.sqrt_sq (zpow_nonneg hc.le _), mul_pow,
        ← zpow_natCast, ← zpow_mul]
      congr 2
      rw [Nat.cast_sub (by omega)]
      push_cast; ring
  · intro x h
    simp only [unitGrading, Bool.cond_eq_ite, Nat.beq_eq] at h ⊢
    split_ifs at h ⊢ with h1
    · subst h1; simp
    · exact absurd rfl h

/-- The sign of a degree. -/
def sgn (x : ℕ) : ℝ := if x = 2 then -1 else 1

/-- Changing signs. -/
theorem sign_action : IsAction signGrading sgn := by
  constructor
  · simp [signGrading, sgn]
  · simp [signGrading]
  · intro x y h
    simp only [signGrading, Bool.cond_eq_ite, Bool.and_eq_true, Nat.beq_eq] at h ⊢
    split_ifs at h ⊢ with h1 h2 h3
    · subst h1; exact ⟨by omega, h, by simp [sgn]⟩
    · subst h2; exact ⟨h, by omega, by simp [sgn]⟩
    · rw [h3.1, h3.2]; simp [sgn]
    · exact absurd rfl h
  · intro x y h
    simp only [signGrading, Bool.cond_eq_ite, Bool.and_eq_true, Nat.beq_eq] at h ⊢
    split_ifs at h ⊢ with h1 h2 h3
    · subst h1; exact ⟨by omega, h, by unfold sgn; split_ifs <;> simp_all⟩
    · subst h2; exact ⟨h, by omega, by simp [sgn]⟩
    · rw [h3.1, h3.2]; simp [sgn]
    · exact absurd rfl h
  · intro x k h
    simp only [signGrading, Bool.cond_eq_ite, Bool.and_eq_true, Nat.beq_eq] at h ⊢
    split_ifs at h ⊢ with h1 h2 h3
    · subst h1; simp [sgn]
    · obtain ⟨rfl, h2⟩ := h2
      have : Even k := Nat.even_iff.mpr h2
      simp [sgn, this.neg_one_pow]
    · subst h3
      have : Odd k := Nat.odd_iff.mpr (by
        have : ¬ k % 2 = 0 := fun e => h2 ⟨rfl, e⟩
        omega)
      simp [sgn, this.neg_one_pow]
    · exact absurd rfl h
  · intro x k h
    simp only [signGrading, Bool.cond_eq_ite, Nat.beq_eq] at h ⊢
    split_ifs at h ⊢ with h1
    · subst h1; simp [sgn]
    · exact absurd rfl h
  · intro x h
    simp only [signGrading] at h ⊢
    refine ⟨h, fun v => ?_⟩
    unfold sgn
    split_ifs <;> simp

end BP.EL
