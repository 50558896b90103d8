import Verif.Lemmas.JacobianSound

/-!
# How the cells depend on one angle: the check of a table

The primes 2 and 3 stand for the cosine and the sine of the angle that is turned, 5 for `z[494]`, 7 for
its inverse.  The other variables are cells that do not depend on the angle.
-/

set_option linter.unusedSimpArgs false

namespace BP.EL

/-! ## Polynomials in sines and cosines -/

/-- The angles: primes of the cosine and the sine. -/
abbrev Angles := List (ℕ × ℕ)

/-- The squares of a sine and a cosine add to one. -/
def Pyth (x : ℕ → ℝ) (as : Angles) : Prop := ∀ a ∈ as, mono x (a.2 * a.2) = 1 - mono x (a.1 * a.1)

/-- Replace the squares of sines. -/
def tred : Angles → ℕ → ℤ → Poly
  | [], n, k => [(n, k)]
  | a :: as, n, k =>
    bif Nat.beq (Nat.mod n (Nat.mul a.2 a.2)) 0 then
      padd (tred as (Nat.div n (Nat.mul a.2 a.2)) k)
        (tred as (Nat.mul (Nat.div n (Nat.mul a.2 a.2)) (Nat.mul a.1 a.1)) (Int.neg k))
    else tred as n k

theorem peval_tred {x : ℕ → ℝ} (as : Angles) (hx : Pyth x as) (n : ℕ) (k : ℤ) :
    peval x (tred as n k) = k * mono x n := by
  induction as generalizing n k with
  | nil => simp [tred]
  | cons a as ih =>
    have hx' : Pyth x as := fun b hb => hx b (List.mem_cons_of_mem _ hb)
    simp only [tred, Bool.cond_eq_ite, Nat.beq_eq]
    split_ifs with h
    · have e : n = a.2 * a.2 * (n / (a.2 * a.2)) := (Nat.mul_div_cancel' (Nat.dvd_of_mod_eq_zero h)).symm
      have h1 := hx a (List.mem_cons_self ..)
      rw [peval_padd, ih hx', ih hx', show Nat.mul (Nat.div n (Nat.mul a.2 a.2)) (Nat.mul a.1 a.1) =
        n / (a.2 * a.2) * (a.1 * a.1) from rfl, mono_mul, show Nat.div n (Nat.mul a.2 a.2) = n / (a.2 * a.2) from rfl]
      have e3 : ((Int.neg k : ℤ) : ℝ) = -(k : ℝ) := by rw [← Int.cast_neg]; rfl
      conv_rhs => rw [e, mono_mul, h1]
      rw [e3]
      ring
    · exact ih hx' n k

/-- Sums of neighbours. -/
def pairUp : List Poly → List Poly
  | p :: q :: ps => padd p q :: pairUp ps
  | ps => ps

/-- The sum. -/
def psum : ℕ → List Poly → Poly
  | 0, ps => ps.foldr padd []
  | _, [] => []
  | _, [p] => p
  | f + 1, ps => psum f (pairUp ps)

theorem pairUp_sum (x : ℕ → ℝ) (ps : List Poly) :
    ((pairUp ps).map (peval x)).sum = (ps.map (peval x)).sum := by
  induction ps using pairUp.induct with
  | case1 p q ps ih => simp [pairUp, peval_padd, ih, add_assoc]
  | case2 ps h => unfold pairUp; split <;> simp_all

theorem peval_psum (x : ℕ → ℝ) (f : ℕ) (ps : List Poly) : peval x (psum f ps) = (ps.map (peval x)).sum := by
  induction f generalizing ps with
  | zero =>
    unfold psum
    induction ps with
    | nil => simp
    | cons p ps ih => simp [peval_padd, ih]
  | succ f ih =>
    match ps with
    | [] => simp [psum]
    | [p] => simp [psum]
    | p :: q :: ps =>
      rw [psum, ih, pairUp_sum]
      · simp
      · simp

/-- The terms that stay reduced when they are multiplied by a term. -/
def tkeep (g a : ℕ) (k : ℤ) : Poly → Poly
  | [] => []
  | t :: q => bif Nat.beq (Nat.gcd g t.1) 1 then (Nat.mul a t.1, Int.mul k t.2) :: tkeep g a k q else tkeep g a k q

/-- The others. -/
def tfix (as : Angles) (g a : ℕ) (k : ℤ) : Poly → List Poly
  | [] => []
  | t :: q => bif Nat.beq (Nat.gcd g t.1) 1 then tfix as g a k q
    else tred as (Nat.mul a t.1) (Int.mul k t.2) :: tfix as g a k q

theorem tsplit {x : ℕ → ℝ} {as : Angles} (hx : Pyth x as) (g a : ℕ) (k : ℤ) (q : Poly) :
    peval x (tkeep g a k q) + ((tfix as g a k q).map (peval x)).sum = k * mono x a * peval x q := by
  induction q with
  | nil => simp [tkeep, tfix]
  | cons t q ih =>
    have e1 : mono x (Nat.mul a t.1) = mono x a * mono x t.1 := mono_mul x a t.1
    have e2 : ((Int.mul k t.2 : ℤ) : ℝ) = k * t.2 := by rw [← Int.cast_mul]; rfl
    simp only [tkeep, tfix, Bool.cond_eq_ite, Nat.beq_eq]
    split_ifs with h
    · rw [peval_cons, peval_cons]
      simp only [e1, e2]
      linear_combination ih
    · rw [List.map_cons, List.sum_cons, peval_tred as hx, peval_cons, e1, e2]
      linear_combination ih

/-- Multiply by a term; `S` is the product of the sines. -/
def tscale (as : Angles) (S a : ℕ) (k : ℤ) (q : Poly) : Poly :=
  bif Nat.beq (Nat.gcd a S) 1 then pscale a k q
  else padd (tkeep (Nat.gcd a S) a k q) (psum 20 (tfix as (Nat.gcd a S) a k q))

theorem peval_tscale {x : ℕ → ℝ} {as : Angles} (hx : Pyth x as) (S a : ℕ) (k : ℤ) (q : Poly) :
    peval x (tscale as S a k q) = k * mono x a * peval x q := by
  unfold tscale
  simp only [Bool.cond_eq_ite]
  split_ifs
  · rw [peval_pscale]
  · rw [peval_padd, peval_psum, tsplit hx]

/-- The terms of a product. -/
def tmulTerms (as : Angles) (S : ℕ) (q : Poly) : Poly → List Poly
  | [] => []
  | t :: p => tscale as S t.1 t.2 q :: tmulTerms as S q p

/-- The product. -/
def tmul (as : Angles) (S : ℕ) (p q : Poly) : Poly := psum 20 (tmulTerms as S q p)

theorem peval_tmul {x : ℕ → ℝ} {as : Angles} (hx : Pyth x as) (S : ℕ) (p q : Poly) :
    peval x (tmul as S p q) = peval x p * peval x q := by
  unfold tmul
  rw [peval_psum]
  induction p with
  | nil => simp [tmulTerms]
  | cons t p ih =>
    rw [tmulTerms, List.map_cons, List.sum_cons, ih, peval_tscale hx, peval_cons]; ring

/-- Powers. -/
def tpow (as : Angles) (S : ℕ) (p : Poly) : ℕ → Poly
  | 0 => [(1, 1)]
  | k + 1 => tmul as S p (tpow as S p k)

theorem peval_tpow {x : ℕ → ℝ} {as : Angles} (hx : Pyth x as) (S : ℕ) (p : Poly) (k : ℕ) :
    peval x (tpow as S p k) = peval x p ^ k := by
  induction k with
  | zero => simp [tpow, mono_one]
  | succ k ih => rw [tpow, peval_tmul hx, ih]; ring

/-! ## Expressions -/

/-- What is checked: the table, the angle, the angles with their primes, the product of the sines, variables
that stand for polynomials. -/
structure Turn where
  V : JTree
  rot : ℕ
  angles : Angles
  S : ℕ
  ghosts : List (ℕ × PolyQ)

/-- Is it the cell? -/
def isCell (l : ℕ) : E → Bool
  | .z k => Nat.beq k l
  | _ => false

/-- An expression as a polynomial. -/
def E.tpoly (T : Turn) : E → Option PolyQ
  | .z l => jval T.V l
  | .n k => some (pconst k, 0)
  | .qt k => some (pconst k, 1)
  | .neg a => (a.tpoly T).map qneg
  | .add a b => (a.tpoly T).bind fun p => (b.tpoly T).map fun q => paddq p q
  | .sub a b => (a.tpoly T).bind fun p => (b.tpoly T).map fun q => paddq p (qneg q)
  | .mul a b => (a.tpoly T).bind fun p => (b.tpoly T).map fun q => (tmul T.angles T.S p.1 q.1, Nat.add p.2 q.2)
  | .div a b => bif isCell 494 b then (a.tpoly T).map fun p => (pscale 7 1 p.1, p.2) else none
  | .pow a k => (a.tpoly T).map fun p => (tpow T.angles T.S p.1 k, Nat.mul p.2 k)
  | .hpow _ _ => none
  | .sin a => bif isCell T.rot a then some ([(3, 1)], 0) else none
  | .cos a => bif isCell T.rot a then some ([(2, 1)], 0) else none

/-- A polynomial without the angle. -/
def freeP : Poly → Bool
  | [] => true
  | t :: p => (Nat.beq (Nat.gcd t.1 6) 1).and (freeP p)

/-- An entry without the angle. -/
def JEnt.free : JEnt → Bool
  | .atom p => Nat.beq (Nat.gcd p 6) 1
  | .trans q _ => freeP q
  | _ => false

/-- Does the table say that the cell does not depend on the angle? -/
def freeCell (T : Turn) (l : ℕ) : Bool :=
  match T.V.look l with
  | none => (Nat.beq l T.rot).not
  | some e => e.free

/-- Are only such cells read? -/
def E.pure (T : Turn) : E → Bool
  | .z l => freeCell T l
  | .n _ => true
  | .qt _ => true
  | .neg a => a.pure T
  | .add a b => (a.pure T).and (b.pure T)
  | .sub a b => (a.pure T).and (b.pure T)
  | .mul a b => (a.pure T).and (b.pure T)
  | .div a b => (a.pure T).and (b.pure T)
  | .pow a _ => a.pure T
  | .hpow a _ => a.pure T
  | .sin a => a.pure T
  | .cos a => a.pure T

/-- The polynomial exists and is without the angle. -/
def freeO : Option PolyQ → Bool
  | none => false
  | some q => freeP q.1

/-- Is the expression independent of the angle? -/
def freeExpr (T : Turn) (e : E) : Bool := (e.pure T).or (freeO (e.tpoly T))

/-- The definition of the variable in a term that is the cosine or the sine times a variable. -/
def ghostOf : List (ℕ × PolyQ) → ℕ → Option (ℕ × PolyQ)
  | [], _ => none
  | g :: gs, n => bif (Nat.beq (Nat.mul 2 g.1) n).or (Nat.beq (Nat.mul 3 g.1) n) then some g else ghostOf gs n

/-- The term with the variable replaced. -/
def gterm (n : ℕ) (k : ℤ) : Option (ℕ × PolyQ) → PolyQ
  | none => ([(n, k)], 0)
  | some g => (pscale (Nat.div n g.1) k g.2.1, g.2.2)

/-- A polynomial with the variables replaced. -/
def gexp (gs : List (ℕ × PolyQ)) : Poly → PolyQ
  | [] => ([], 0)
  | t :: q => paddq (gterm t.1 t.2 (ghostOf gs t.1)) (gexp gs q)

/-- Divide by a power of 4. -/
def gden (k : ℕ) (p : PolyQ) : PolyQ := (p.1, Nat.add p.2 k)

theorem ghostOf_some {gs : List (ℕ × PolyQ)} {n : ℕ} {g : ℕ × PolyQ} (h : ghostOf gs n = some g) :
    g ∈ gs ∧ ∃ c, n = c * g.1 := by
  induction gs with
  | nil => simp [ghostOf] at h
  | cons g' gs ih =>
    simp only [ghostOf, Bool.cond_eq_ite, Bool.or_eq_true, Nat.beq_eq] at h
    split_ifs at h with hc
    · simp only [Option.some.injEq] at h
      subst h
      refine ⟨List.mem_cons_self .., ?_⟩
      rcases hc with hc | hc
      · exact ⟨2, hc.symm⟩
      · exact ⟨3, hc.symm⟩
    · obtain ⟨h1, h2⟩ := ih h
      exact ⟨List.mem_cons_of_mem _ h1, h2⟩

theorem qeval_gexp {x : ℕ → ℝ} {gs : List (ℕ × PolyQ)} (hg : ∀ g ∈ gs, 0 < g.1 ∧ mono x g.1 = qeval x g.2) (q : Poly) :
    qeval x (gexp gs q) = peval x q := by
  induction q with
  | nil => simp [gexp, qeval]
  | cons t q ih =>
    rw [gexp, qeval_add, ih, peval_cons]
    congr 1
    cases h : ghostOf gs t.1 with
    | none => simp [gterm, qeval]
    | some g =>
      obtain ⟨h1, c, hc⟩ := ghostOf_some h
      obtain ⟨h0, h2⟩ := hg g h1
      unfold gterm
      have e : Nat.div t.1 g.1 = c := by
        change t.1 / g.1 = c
        rw [hc, Nat.mul_div_cancel _ h0]
      unfold qeval at h2 ⊢
      simp only
      rw [e, peval_pscale, hc, mono_mul, h2]
      ring

theorem qeval_gden {x : ℕ → ℝ} {gs : List (ℕ × PolyQ)} (hg : ∀ g ∈ gs, 0 < g.1 ∧ mono x g.1 = qeval x g.2) (q : Poly)
    (k : ℕ) : qeval x (gden k (gexp gs q)) = qeval x (q, k) := by
  have h := qeval_gexp hg q
  unfold qeval gden at *
  simp only
  rw [← h, show Nat.add (gexp gs q).2 k = (gexp gs q).2 + k from rfl, pow_add]
  field_simp

/-- The check of a statement. -/
def turnOk (ps : List (ℕ × ℕ)) (T : Turn) (s : ℕ × E) : Bool :=
  match T.V.look s.1 with
  | none => (freeExpr T s.2).and (Nat.beq s.1 T.rot).not
  | some (.atom p) => (ps.any fun t => (Nat.beq t.1 p).and (Nat.beq t.2 s.1)).and
      ((Nat.beq (Nat.gcd p 6) 1).and (freeExpr T s.2))
  | some (.trans q k) => (qeqO (s.2.tpoly T) (q, k)).or (qeqO (s.2.tpoly T) (gden k (gexp T.ghosts q)))
  | some _ => false

/-- All of them. -/
def turnCheck (ps : List (ℕ × ℕ)) (T : Turn) : List (ℕ × E) → Bool
  | [] => true
  | s :: p => (turnOk ps T s).and (turnCheck ps T p)

theorem turnCheck_mem {ps : List (ℕ × ℕ)} {T : Turn} {p : List (ℕ × E)} (h : turnCheck ps T p = true) {s : ℕ × E}
    (hs : s ∈ p) : turnOk ps T s = true := by
  induction p with
  | nil => simp at hs
  | cons s' p ih =>
    simp only [turnCheck, Bool.and_eq_true] at h
    rcases List.mem_cons.mp hs with rfl | hs
    · exact h.1
    · exact ih h.2 hs

/-! ## What it establishes -/

/-- Two memories, of runs that differ in the angle, and the values of the variables. -/
structure TurnEnv (T : Turn) (x y m m' : ℕ → ℝ) : Prop where
  pyth : Pyth x T.angles
  pyth' : Pyth y T.angles
  same : ∀ p, p ≠ 2 → p ≠ 3 → x p = y p
  cosine : Real.cos (m T.rot) = x 2
  sine : Real.sin (m T.rot) = x 3
  cosine' : Real.cos (m' T.rot) = y 2
  sine' : Real.sin (m' T.rot) = y 3
  inv : x 7 = (m 494)⁻¹
  ghost : ∀ g ∈ T.ghosts, 0 < g.1 ∧ mono x g.1 = qeval x g.2
  ghost' : ∀ g ∈ T.ghosts, 0 < g.1 ∧ mono y g.1 = qeval y g.2
  cell : T.V.look 494 = some (.atom 5)

/-- The table is right about a cell. -/
structure TurnGood (T : Turn) (x y m m' : ℕ → ℝ) (l : ℕ) : Prop where
  unlisted : T.V.look l = none → l ≠ T.rot → m l = m' l
  listed : ∀ q, jval T.V l = some q → m l = qeval x q ∧ m' l = qeval y q

theorem isCell_reads {l d : ℕ} {e : E} (h : isCell l e = true) (hr : e.reads d = true) : Nat.testBit d l = true := by
  cases e with
  | z k => simp only [isCell, Nat.beq_eq] at h; subst h; exact hr
  | _ => simp [isCell] at h

theorem isCell_val {l : ℕ} {e : E} (h : isCell l e = true) (m : ℕ → ℝ) : e.val real m = m l := by
  cases e with
  | z k => simp only [isCell, Nat.beq_eq] at h; subst h; rfl
  | _ => simp [isCell] at h

/-- Monomials without the angle. -/
theorem mono_free {x y : ℕ → ℝ} (h : ∀ p, p ≠ 2 → p ≠ 3 → x p = y p) (n : ℕ) (hn : Nat.gcd n 6 = 1) :
    mono x n = mono y n := by
  unfold mono
  split_ifs
  · rfl
  · refine Finset.prod_congr rfl fun p hp => ?_
    have hd : p ∣ n := Nat.dvd_of_mem_primeFactors hp
    have hpp : p.Prime := Nat.prime_of_mem_primeFactors hp
    show x p ^ _ = y p ^ _
    rw [h p]
    · rintro rfl
      have := Nat.dvd_gcd hd (show 2 ∣ 6 by norm_num)
      rw [hn] at this; norm_num at this
    · rintro rfl
      have := Nat.dvd_gcd hd (show 3 ∣ 6 by norm_num)
      rw [hn] at this; norm_num at this

theorem peval_free {x y : ℕ → ℝ} (h : ∀ p, p ≠ 2 → p ≠ 3 → x p = y p) (q : Poly) (hq : freeP q = true) :
    peval x q = peval y q := by
  induction q with
  | nil => simp
  | cons t q ih =>
    simp only [freeP, Bool.and_eq_true, Nat.beq_eq] at hq
    rw [peval_cons, peval_cons, ih hq.2, mono_free h t.1 hq.1]

theorem qeval_free {x y : ℕ → ℝ} (h : ∀ p, p ≠ 2 → p ≠ 3 → x p = y p) (q : PolyQ) (hq : freeP q.1 = true) :
    qeval x q = qeval y q := by
  unfold qeval; rw [peval_free h q.1 hq]

/-- The inverse is that of the other memory too, once the cell is known. -/
theorem TurnEnv.inv_of {T : Turn} {x y m m' : ℕ → ℝ} (hE : TurnEnv T x y m m') (h : TurnGood T x y m m' 494) :
    y 7 = (m' 494)⁻¹ := by
  have hj : jval T.V 494 = some (qvar 5) := by unfold jval; rw [hE.cell]; rfl
  obtain ⟨h1, h2⟩ := h.2 _ hj
  rw [← hE.same 7 (by norm_num) (by norm_num), hE.inv, h1, h2,
    qeval_free hE.same (qvar 5) (by decide)]

theorem freeCell_sound {T : Turn} {x y m m' : ℕ → ℝ} (same : ∀ p, p ≠ 2 → p ≠ 3 → x p = y p) {l : ℕ}
    (hl : TurnGood T x y m m' l) (h : freeCell T l = true) : m l = m' l := by
  unfold freeCell at h
  split at h
  · rename_i e
    refine hl.1 e fun hh => ?_
    rw [hh] at h
    simp at h
  · rename_i e he
    have hj : jval T.V l = some e.poly := by unfold jval; rw [he]
    obtain ⟨h1, h2⟩ := hl.listed _ hj
    rw [h1, h2]
    refine qeval_free same _ ?_
    cases e with
    | atom p => simpa [JEnt.poly, qvar, freeP, JEnt.free] using h
    | trans q k => exact h
    | adef p q k => simp [JEnt.free] at h
    | mult p r a k => simp [JEnt.free] at h

theorem pure_sound {T : Turn} {x y m m' : ℕ → ℝ} (hE : TurnEnv T x y m m') (d : ℕ)
    (hd : ∀ l, Nat.testBit d l = true → TurnGood T x y m m' l) (e : E) (hr : e.reads d = true)
    (h : e.pure T = true) : e.val real m = e.val real m' := by
  induction e with
  | z l => exact freeCell_sound hE.same (hd l hr) h
  | n k => rfl
  | qt k => rfl
  | neg a iha => simp only [E.val]; rw [iha hr h]
  | add a b iha ihb =>
    simp only [E.reads, E.pure, Bool.and_eq_true] at hr h
    simp only [E.val]; rw [iha hr.1 h.1, ihb hr.2 h.2]
  | sub a b iha ihb =>
    simp only [E.reads, E.pure, Bool.and_eq_true] at hr h
    simp only [E.val]; rw [iha hr.1 h.1, ihb hr.2 h.2]
  | mul a b iha ihb =>
    simp only [E.reads, E.pure, Bool.and_eq_true] at hr h
    simp only [E.val]; rw [iha hr.1 h.1, ihb hr.2 h.2]
  | div a b iha ihb =>
    simp only [E.reads, E.pure, Bool.and_eq_true] at hr h
    simp only [E.val]; rw [iha hr.1 h.1, ihb hr.2 h.2]
  | pow a k iha => simp only [E.val]; rw [iha hr h]
  | hpow a k iha => simp only [E.val]; rw [iha hr h]
  | sin a iha => simp only [E.val]; rw [iha hr h]
  | cos a iha => simp only [E.val]; rw [iha hr h]

/-- An expression has the value of its polynomial; stated for one of the memories. -/
theorem tpoly_sound {T : Turn} {x m : ℕ → ℝ} (hp : Pyth x T.angles) (hc : Real.cos (m T.rot) = x 2)
    (hs : Real.sin (m T.rot) = x 3) (d : ℕ) (hi : Nat.testBit d 494 = true → x 7 = (m 494)⁻¹)
    (hd : ∀ l, Nat.testBit d l = true → ∀ q, jval T.V l = some q → m l = qeval x q) (e : E)
    (hr : e.reads d = true) (p : PolyQ) (h : e.tpoly T = some p) : e.val real m = qeval x p := by
  have z7 : mono x 7 = x 7 := mono_prime x (by norm_num)
  induction e generalizing p with
  | z l => exact hd l hr p h
  | n k =>
    simp only [E.tpoly, Option.some.injEq] at h
    subst h
    simp [E.val, real, qeval, peval_pconst]
  | qt k =>
    simp only [E.tpoly, Option.some.injEq] at h
    subst h
    simp [E.val, real, qeval, peval_pconst]
  | neg a iha =>
    obtain ⟨q, hq, rfl⟩ := Option.map_eq_some_iff.mp h
    rw [qeval_neg, ← iha hr q hq]; rfl
  | add a b iha ihb =>
    simp only [E.reads, Bool.and_eq_true] at hr
    obtain ⟨q, hq, h⟩ := Option.bind_eq_some_iff.mp h
    obtain ⟨r, hr', rfl⟩ := Option.map_eq_some_iff.mp h
    rw [qeval_add, ← iha hr.1 q hq, ← ihb hr.2 r hr']; rfl
  | sub a b iha ihb =>
    simp only [E.reads, Bool.and_eq_true] at hr
    obtain ⟨q, hq, h⟩ := Option.bind_eq_some_iff.mp h
    obtain ⟨r, hr', rfl⟩ := Option.map_eq_some_iff.mp h
    rw [qeval_add, qeval_neg, ← iha hr.1 q hq, ← ihb hr.2 r hr']; exact sub_eq_add_neg _ _
  | mul a b iha ihb =>
    simp only [E.reads, Bool.and_eq_true] at hr
    obtain ⟨q, hq, h⟩ := Option.bind_eq_some_iff.mp h
    obtain ⟨r, hr', rfl⟩ := Option.map_eq_some_iff.mp h
    change a.val real m * b.val real m = _
    rw [iha hr.1 q hq, ihb hr.2 r hr']
    unfold qeval
    rw [peval_tmul hp, show Nat.add q.2 r.2 = q.2 + r.2 from rfl, pow_add]
    field_simp
  | div a b iha ihb =>
    simp only [E.reads, Bool.and_eq_true] at hr
    simp only [E.tpoly, Bool.cond_eq_ite] at h
    split_ifs at h with hb
    obtain ⟨q, hq, rfl⟩ := Option.map_eq_some_iff.mp h
    change a.val real m / b.val real m = _
    rw [isCell_val hb, iha hr.1 q hq]
    unfold qeval
    rw [peval_pscale, z7, hi (isCell_reads hb hr.2)]
    push_cast
    ring
  | pow a k iha =>
    obtain ⟨q, hq, rfl⟩ := Option.map_eq_some_iff.mp h
    change a.val real m ^ k = _
    rw [iha hr q hq]
    unfold qeval
    rw [peval_tpow hp, div_pow, ← pow_mul]
    rfl
  | hpow a k iha => simp [E.tpoly] at h
  | sin a iha =>
    simp only [E.tpoly, Bool.cond_eq_ite] at h
    split_ifs at h with hb
    simp only [Option.some.injEq] at h
    subst h
    change Real.sin (a.val real m) = _
    rw [isCell_val hb, hs]
    simp [qeval, mono_prime x Nat.prime_three]
  | cos a iha =>
    simp only [E.tpoly, Bool.cond_eq_ite] at h
    split_ifs at h with hb
    simp only [Option.some.injEq] at h
    subst h
    change Real.cos (a.val real m) = _
    rw [isCell_val hb, hc]
    simp [qeval, mono_prime x Nat.prime_two]

theorem freeExpr_sound {T : Turn} {x y m m' : ℕ → ℝ} (hE : TurnEnv T x y m m') (d : ℕ)
    (hd : ∀ l, Nat.testBit d l = true → TurnGood T x y m m' l) (e : E) (hr : e.reads d = true)
    (h : freeExpr T e = true) : e.val real m = e.val real m' := by
  rw [freeExpr, Bool.or_eq_true] at h
  rcases h with h | h
  · exact pure_sound hE d hd e hr h
  · unfold freeO at h
    split at h
    · cases h
    · rename_i q hq
      rw [tpoly_sound hE.pyth hE.cosine hE.sine d (fun _ => hE.inv) (fun l hl q hq => ((hd l hl).listed q hq).1) e hr q hq,
        tpoly_sound hE.pyth' hE.cosine' hE.sine' d (fun hb => hE.inv_of (hd _ hb)) (fun l hl q hq => ((hd l hl).listed q hq).2) e hr q hq]
      exact qeval_free hE.same q h

/-- Variables with given definitions: they do not occur in their own nor in later ones' place. -/
def ghostsOk : List (ℕ × PolyQ) → Bool
  | [] => true
  | g :: gs => ((primeOk g.1).and ((Nat.ble 251 g.1).and (gs.all fun g' => (Nat.beq g.1 g'.1).not))).and
      (((freeP g.2.1).and (g.2.1.all fun t => (Nat.beq (Nat.mod t.1 g.1) 0).not.and
        (gs.all fun g' => (Nat.beq (Nat.mod t.1 g'.1) 0).not))).and (ghostsOk gs))

theorem mono_congr {x y : ℕ → ℝ} (n : ℕ) (h : ∀ p, p ∣ n → p.Prime → x p = y p) : mono x n = mono y n := by
  unfold mono
  split_ifs
  · rfl
  · refine Finset.prod_congr rfl fun p hp => ?_
    show x p ^ _ = y p ^ _
    rw [h p (Nat.dvd_of_mem_primeFactors hp) (Nat.prime_of_mem_primeFactors hp)]

theorem peval_congr {x y : ℕ → ℝ} (q : Poly) (h : ∀ t ∈ q, ∀ p, p ∣ t.1 → p.Prime → x p = y p) :
    peval x q = peval y q := by
  induction q with
  | nil => simp
  | cons t q ih =>
    rw [peval_cons, peval_cons, ih fun t ht => h t (List.mem_cons_of_mem _ ht),
      mono_congr t.1 (h t (List.mem_cons_self ..))]

/-- Such variables exist. -/
theorem ghosts_exist (gs : List (ℕ × PolyQ)) (h : ghostsOk gs = true) (x₀ : ℕ → ℝ) :
    ∃ x : ℕ → ℝ, (∀ p, (∀ g ∈ gs, p ≠ g.1) → x p = x₀ p) ∧ ∀ g ∈ gs, x g.1 = qeval x g.2 := by
  induction gs generalizing x₀ with
  | nil => exact ⟨x₀, fun _ _ => rfl, fun _ h => by simp at h⟩
  | cons g gs ih =>
    simp only [ghostsOk, Bool.and_eq_true, List.all_eq_true, Bool.not_eq_true'] at h
    obtain ⟨⟨-, -, h2⟩, ⟨-, h3⟩, h4⟩ := h
    obtain ⟨x, hx, hg⟩ := ih h4 (Function.update x₀ g.1 (qeval x₀ g.2))
    have nd : ∀ {a b : ℕ}, Nat.beq (Nat.mod a b) 0 = false → ¬ b ∣ a := by
      intro a b hb hd
      have : Nat.mod a b = 0 := Nat.mod_eq_zero_of_dvd hd
      rw [this] at hb
      simp at hb
    have e0 : ∀ t ∈ g.2.1, ∀ p, p ∣ t.1 → p.Prime → x p = x₀ p := by
      intro t ht p hp _
      obtain ⟨a, b⟩ := h3 t ht
      rw [hx p, Function.update_of_ne]
      · rintro rfl; exact nd a hp
      · intro g' hg' e
        rw [e] at hp
        exact nd (b g' hg') hp
    have e1 : qeval x g.2 = qeval x₀ g.2 := by
      unfold qeval
      rw [peval_congr g.2.1 e0]
    refine ⟨x, fun p hp => ?_, fun g' hg' => ?_⟩
    · rw [hx p fun g' hg' => hp g' (List.mem_cons_of_mem _ hg'), Function.update_of_ne (hp g (List.mem_cons_self ..))]
    · rcases List.mem_cons.mp hg' with rfl | hg'
      · rw [e1]
        by_cases hm : ∃ g'' ∈ gs, g'.1 = g''.1
        · obtain ⟨g'', hg'', e⟩ := hm
          have := h2 g'' hg''
          rw [e] at this
          simp at this
        · rw [hx g'.1 fun g'' hg'' e => hm ⟨g'', hg'', e⟩, Function.update_self]
      · exact hg g' hg'

/-- One statement. -/
theorem turnOk_sound {ps : List (ℕ × ℕ)} {T : Turn} {x y m m' : ℕ → ℝ} (hE : TurnEnv T x y m m')
    (hps : ∀ t ∈ ps, qeval x (qvar t.1) = m t.2) (d : ℕ)
    (hd : ∀ l, Nat.testBit d l = true → TurnGood T x y m m' l) (s : ℕ × E) (hr : s.2.reads d = true)
    (hs : m s.1 = s.2.val real m) (hs' : m' s.1 = s.2.val real m') (h : turnOk ps T s = true) :
    TurnGood T x y m m' s.1 := by
  unfold turnOk at h
  split at h
  · rename_i e
    rw [Bool.and_eq_true] at h
    refine ⟨fun _ _ => by rw [hs, hs']; exact freeExpr_sound hE d hd s.2 hr h.1, fun q hq => ?_⟩
    unfold jval at hq; rw [e] at hq; cases hq
  · rename_i p e
    simp only [Bool.and_eq_true, Nat.beq_eq, List.any_eq_true] at h
    obtain ⟨⟨t, ht, h1, h2⟩, h3, h4⟩ := h
    refine ⟨fun hn => absurd (e.symm.trans hn) (by simp), fun q hq => ?_⟩
    unfold jval at hq
    rw [e] at hq
    simp only [Option.some.injEq, JEnt.poly] at hq
    subst hq
    have e1 : m s.1 = m' s.1 := by rw [hs, hs']; exact freeExpr_sound hE d hd s.2 hr h4
    have e2 : m s.1 = qeval x (qvar p) := by rw [← h2, ← hps t ht, h1]
    refine ⟨e2, ?_⟩
    rw [← e1, e2]
    exact qeval_free hE.same _ (by simp [qvar, freeP, h3])
  · rename_i q k e
    refine ⟨fun hn => absurd (e.symm.trans hn) (by simp), fun q' hq => ?_⟩
    unfold jval at hq
    rw [e] at hq
    simp only [Option.some.injEq, JEnt.poly] at hq
    subst hq
    obtain ⟨p', h1, h2, h2'⟩ : ∃ p', s.2.tpoly T = some p' ∧ qeval x p' = qeval x (q, k) ∧
        qeval y p' = qeval y (q, k) := by
      rw [Bool.or_eq_true] at h
      rcases h with h | h
      · obtain ⟨p', h1, h2⟩ := qeqO_some h x
        obtain ⟨p'', h1', h2'⟩ := qeqO_some h y
        rw [h1] at h1'
        simp only [Option.some.injEq] at h1'
        subst h1'
        exact ⟨p', h1, h2, h2'⟩
      · obtain ⟨p', h1, h2⟩ := qeqO_some h x
        obtain ⟨p'', h1', h2'⟩ := qeqO_some h y
        rw [h1] at h1'
        simp only [Option.some.injEq] at h1'
        subst h1'
        rw [qeval_gden hE.ghost] at h2
        rw [qeval_gden hE.ghost'] at h2'
        exact ⟨p', h1, h2, h2'⟩
    rw [hs, hs', ← h2, ← h2',
      tpoly_sound hE.pyth hE.cosine hE.sine d (fun _ => hE.inv) (fun l hl q hq => ((hd l hl).listed q hq).1) s.2 hr _ h1,
      tpoly_sound hE.pyth' hE.cosine' hE.sine' d (fun hb => hE.inv_of (hd _ hb)) (fun l hl q hq => ((hd l hl).listed q hq).2) s.2 hr _ h1]
    exact ⟨rfl, rfl⟩
  · cases h

end BP.EL
