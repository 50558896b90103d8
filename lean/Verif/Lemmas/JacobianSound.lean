import Verif.Lemmas.JacobianCheck

/-!
# The check of a table of partial derivatives: what it establishes
-/

set_option linter.unusedSimpArgs false

namespace BP.EL

/-- The product of the primes below 250. -/
def smallPrimes : ℕ := 256041159035492609053110100510385311995538591998443060216114576417920917800321526504084465112487730

theorem smallPrimes_dvd : ∀ q, q < 250 → q.Prime → q ∣ smallPrimes := by decide +kernel

/-- A test for primes. -/
def primeOk (p : ℕ) : Bool :=
  (Nat.beq p 2).or ((Nat.beq p 5).or ((Nat.beq p 11).or
    ((Nat.ble 14 p).and ((Nat.ble p 62499).and (Nat.beq (Nat.gcd p smallPrimes) 1)))))

theorem primeOk_prime {p : ℕ} (h : primeOk p = true) : p.Prime ∧ p ≠ 3 ∧ p ≠ 7 ∧ p ≠ 13 := by
  simp only [primeOk, Bool.or_eq_true, Bool.and_eq_true, Nat.beq_eq, Nat.ble_eq] at h
  rcases h with rfl | rfl | rfl | ⟨h1, h2, h3⟩
  · norm_num
  · norm_num
  · norm_num
  · refine ⟨?_, by omega, by omega, by omega⟩
    by_contra hp
    have a := Nat.minFac_sq_le_self (by omega : 0 < p) hp
    have b : p.minFac < 250 := by
      by_contra hh
      have := Nat.pow_le_pow_left (not_lt.mp hh) 2
      omega
    have c := Nat.minFac_prime (by omega : p ≠ 1)
    have d := Nat.dvd_gcd (Nat.minFac_dvd p) (smallPrimes_dvd _ b c)
    rw [h3] at d
    exact c.one_lt.ne' (Nat.dvd_one.mp d)

/-- The cell a prime stands for. -/
def cellOf (t p : ℕ) : ℕ := Nat.land (Nat.shiftRight t (Nat.mul 16 p)) 65535

/-- The values of the variables. -/
noncomputable def jvars (t : ℕ) (m : ℕ → ℝ) (p : ℕ) : ℝ :=
  if p = 3 then (m 36)⁻¹ else if p = 7 then (m 494)⁻¹ else if p = 13 then (m 1001)⁻¹ else m (cellOf t p)

/-- Does the prime stand for the cell? -/
def atomOk (t p l : ℕ) : Bool := (primeOk p).and (Nat.beq (cellOf t p) l)

theorem atomOk_sound {t p l : ℕ} (h : atomOk t p l = true) (m : ℕ → ℝ) :
    qeval (jvars t m) (qvar p) = m l := by
  simp only [atomOk, Bool.and_eq_true, Nat.beq_eq] at h
  obtain ⟨h1, h2, h3, h4⟩ := primeOk_prime h.1
  simp only [qeval, qvar, peval_cons, peval_nil]
  rw [mono_prime _ h1]
  simp [jvars, h2, h3, h4, h.2]

/-- Are two polynomials over powers of 4 equal? -/
def qeq (p q : PolyQ) : Bool :=
  bif Nat.beq p.2 q.2 then peq p.1 q.1
  else peq (pscale 1 (Int.ofNat (Nat.pow 4 q.2)) p.1) (pscale 1 (Int.ofNat (Nat.pow 4 p.2)) q.1)

theorem qeq_sound {p q : PolyQ} (h : qeq p q = true) (x : ℕ → ℝ) : qeval x p = qeval x q := by
  unfold qeq at h
  simp only [Bool.cond_eq_ite] at h
  split_ifs at h with e
  · rw [Nat.beq_eq] at e
    unfold qeval
    rw [peq_eq h, e]
  · have := congrArg (peval x) (peq_eq h)
    rw [peval_pscale, peval_pscale, mono_one, mul_one, mul_one] at this
    have e1 : ((Int.ofNat (Nat.pow 4 q.2) : ℤ) : ℝ) = 4 ^ q.2 := by
      rw [show Int.ofNat (Nat.pow 4 q.2) = ((4 ^ q.2 : ℕ) : ℤ) from rfl]; push_cast; rfl
    have e2 : ((Int.ofNat (Nat.pow 4 p.2) : ℤ) : ℝ) = 4 ^ p.2 := by
      rw [show Int.ofNat (Nat.pow 4 p.2) = ((4 ^ p.2 : ℕ) : ℤ) from rfl]; push_cast; rfl
    rw [e1, e2] at this
    unfold qeval
    rw [div_eq_div_iff (by positivity) (by positivity)]
    linarith

/-- Is there a polynomial, equal to `q`? -/
def qeqO (p : Option PolyQ) (q : PolyQ) : Bool :=
  match p with
  | none => false
  | some p => qeq p q

theorem qeqO_some {p : Option PolyQ} {q : PolyQ} (h : qeqO p q = true) (x : ℕ → ℝ) :
    ∃ p', p = some p' ∧ qeval x p' = qeval x q := by
  cases p with
  | none => simp [qeqO] at h
  | some p => exact ⟨p, rfl, qeq_sound h x⟩

/-! ## Values -/

/-- What a table says of the cell `r`, times `a / 4 ^ k`, if the variable is `p`. -/
def multOf (V : JTree) (p r : ℕ) (a : ℤ) (k : ℕ) : Option PolyQ :=
  match V.look r with
  | some (.adef p' q k') => bif Nat.beq p p' then some (pscale 1 a q, Nat.add k' k) else none
  | _ => none

/-- Two polynomials, equal? -/
def qeqOO (p q : Option PolyQ) : Bool :=
  match q with
  | none => false
  | some q => qeqO p q

/-- Does the entry for a cell fit the expression assigned to it?  `d` are the earlier cells. -/
def entOk (t : ℕ) (V : JTree) (d : ℕ) (s : ℕ × E) : Bool :=
  match V.look s.1 with
  | none => true
  | some (.atom p) => atomOk t p s.1
  | some (.adef p q k) => (atomOk t p s.1).and (qeqO (s.2.jpoly V) (q, k))
  | some (.trans q k) =>
    bif Nat.beq s.1 35 then qeq (q, k) ([(4, 1)], 0) else qeqO (s.2.jpoly V) (q, k)
  | some (.mult p r a k) => (Nat.testBit d r).and (qeqOO (s.2.jpoly V) (multOf V p r a k))

/-- All of them. -/
def jvalCheck (t : ℕ) (V : JTree) : ℕ → List (ℕ × E) → Bool
  | _, [] => true
  | d, s :: p => (entOk t V d s).and (jvalCheck t V (Nat.lor d (Nat.shiftLeft 1 s.1)) p)

/-- The table is right about a cell. -/
structure Good (x m : ℕ → ℝ) (V : JTree) (l : ℕ) : Prop where
  val : ∀ q, jval V l = some q → m l = qeval x q
  adef : ∀ p q k, V.look l = some (.adef p q k) → m l = qeval x (q, k)

theorem multOf_sound {x m : ℕ → ℝ} {V : JTree} {p r k : ℕ} {a : ℤ} {q : PolyQ} (hr : Good x m V r)
    (h : multOf V p r a k = some q) : qeval x (JEnt.mult p r a k).poly = qeval x q := by
  unfold multOf at h
  split at h
  · rename_i p' q' k' e
    simp only [Bool.cond_eq_ite] at h
    split_ifs at h with hp
    simp only [Option.some.injEq] at h
    rw [Nat.beq_eq] at hp
    subst hp h
    have h1 := hr.adef p q' k' e
    have h2 := hr.val (qvar p) (by unfold jval; rw [e]; rfl)
    rw [h1] at h2
    simp only [qeval, qvar, peval_cons, peval_nil, JEnt.poly] at h2 ⊢
    rw [peval_pscale, mono_one, show Nat.add k' k = k' + k from rfl, pow_add]
    have h3 : mono x p = peval x q' / 4 ^ k' := by rw [h2]; simp
    rw [h3]
    field_simp
    ring
  · cases h

/-- One statement. -/
theorem entOk_sound {t : ℕ} {V : JTree} {m : ℕ → ℝ} (hE : JEnv (jvars t m) m V) (d : ℕ)
    (hd : ∀ l, Nat.testBit d l = true → Good (jvars t m) m V l) (s : ℕ × E) (hs : m s.1 = s.2.val real m)
    (hr : s.2.reads d = true) (h : entOk t V d s = true) : Good (jvars t m) m V s.1 := by
  have hp := jpoly_sound hE d (fun l hl => (hd l hl).val) s.2 hr
  unfold entOk at h
  split at h
  · rename_i e
    refine ⟨fun q hq => ?_, fun p q k hq => by rw [e] at hq; cases hq⟩
    unfold jval at hq; rw [e] at hq; cases hq
  · rename_i p e
    refine ⟨fun q hq => ?_, fun p q k hq => by rw [e] at hq; cases hq⟩
    unfold jval at hq
    rw [e] at hq
    simp only [Option.some.injEq, JEnt.poly] at hq
    subst hq
    exact (atomOk_sound h m).symm
  · rename_i p q k e
    rw [Bool.and_eq_true] at h
    refine ⟨fun q hq => ?_, fun p' q' k' hq => ?_⟩
    · unfold jval at hq
      rw [e] at hq
      simp only [Option.some.injEq, JEnt.poly] at hq
      subst hq
      exact (atomOk_sound h.1 m).symm
    · rw [e] at hq
      simp only [Option.some.injEq, JEnt.adef.injEq] at hq
      obtain ⟨rfl, rfl, rfl⟩ := hq
      obtain ⟨p', h1, h2⟩ := qeqO_some h.2 (jvars t m)
      rw [hs, hp _ h1, h2]
  · rename_i q k e
    refine ⟨fun q' hq => ?_, fun p q k hq => by rw [e] at hq; cases hq⟩
    unfold jval at hq
    rw [e] at hq
    simp only [Option.some.injEq, JEnt.poly] at hq
    subst hq
    simp only [Bool.cond_eq_ite] at h
    split_ifs at h with h35
    · rw [Nat.beq_eq] at h35
      rw [h35, qeq_sound h]
      have e2 : m 35 = jvars t m 2 ^ 2 := by rw [← hE.root, Real.sq_sqrt hE.pos.le]
      simp only [qeval, peval_cons, peval_nil]
      rw [show 4 = 2 * 2 from rfl, mono_mul, mono_prime _ Nat.prime_two, e2]
      push_cast
      ring
    · obtain ⟨p', h1, h2⟩ := qeqO_some h (jvars t m)
      rw [hs, hp _ h1, h2]
  · rename_i p r a k e
    rw [Bool.and_eq_true] at h
    refine ⟨fun q' hq => ?_, fun p q k hq => by rw [e] at hq; cases hq⟩
    unfold jval at hq
    rw [e] at hq
    simp only [Option.some.injEq] at hq
    subst hq
    obtain ⟨hr, h⟩ := h
    unfold qeqOO at h
    split at h
    · cases h
    · rename_i q hq
      obtain ⟨p', h1, h2⟩ := qeqO_some h (jvars t m)
      rw [multOf_sound (hd r hr) hq, hs, hp _ h1, h2]

/-- The whole program. -/
theorem jvalCheck_sound {t : ℕ} {V : JTree} {m : ℕ → ℝ} (hE : JEnv (jvars t m) m V) (p : List (ℕ × E))
    (d d' : ℕ) (hd : definedCheck p d d' = true) (hc : jvalCheck t V d p = true)
    (hp : ∀ s ∈ p, m s.1 = s.2.val real m)
    (h : ∀ l, Nat.testBit d l = true → Good (jvars t m) m V l) :
    ∀ l, Nat.testBit d' l = true → Good (jvars t m) m V l := by
  induction p generalizing d with
  | nil =>
    have e : d = d' := by simpa [definedCheck] using hd
    subst e; exact h
  | cons s p ih =>
    simp only [definedCheck, Bool.and_eq_true, Bool.not_eq_true'] at hd
    simp only [jvalCheck, Bool.and_eq_true] at hc
    obtain ⟨⟨h1, -⟩, h3⟩ := hd
    refine ih _ h3 hc.2 (fun s' hs' => hp s' (List.mem_cons_of_mem _ hs')) ?_
    intro l hl
    have hl' : Nat.testBit (d ||| 1 <<< s.1) l = true := hl
    rw [Nat.testBit_or, Nat.testBit_shiftLeft] at hl'
    by_cases e : l = s.1
    · subst e; exact entOk_sound hE d h s (hp s (List.mem_cons_self ..)) h1 hc.1
    · rcases Bool.or_eq_true _ _ ▸ hl' with hh | hh
      · exact h l hh
      · exfalso
        simp only [Bool.and_eq_true, decide_eq_true_eq, Nat.testBit_one_eq_true_iff_self_eq_zero] at hh
        omega

/-! ## Derivatives -/

/-- Does the entry for a cell fit the differential of the expression assigned to it? -/
def dirOk (V T : JTree) (all : ℕ) (s : ℕ × E) : Bool :=
  match T.look s.1 with
  | none => qeqO (s.2.chain V T) ([], 0)
  | some (.trans q k) => qeqO (s.2.chain V T) (q, k)
  | some (.mult p r a k) => (Nat.testBit all r).and (qeqOO (s.2.chain V T) (multOf V p r a k))
  | some _ => false

/-- All of them. -/
def jdirCheck (V T : JTree) (all : ℕ) : List (ℕ × E) → Bool
  | [] => true
  | s :: p => (dirOk V T all s).and (jdirCheck V T all p)

theorem jdirCheck_mem {V T : JTree} {all : ℕ} {p : List (ℕ × E)} (h : jdirCheck V T all p = true) {s : ℕ × E}
    (hs : s ∈ p) : dirOk V T all s = true := by
  induction p with
  | nil => simp at hs
  | cons s' p ih =>
    simp only [jdirCheck, Bool.and_eq_true] at h
    rcases List.mem_cons.mp hs with rfl | hs
    · exact h.1
    · exact ih h.2 hs

/-- One statement: the entry is the differential. -/
theorem dirOk_sound {x m : ℕ → ℝ} {V T : JTree} {all : ℕ} (hE : JEnv x m V)
    (hG : ∀ l, Nat.testBit all l = true → Good x m V l) (d : ℕ) (hd : ∀ l, Nat.testBit d l = true → Good x m V l)
    (s : ℕ × E) (hr : s.2.reads d = true) (h : dirOk V T all s = true) :
    s.2.diff m (fun l => qeval x (jder T l)) = qeval x (jder T s.1) ∧ s.2.Safe m := by
  have hc := chain_sound hE d (fun l hl => (hd l hl).val) T s.2 hr
  have hs := chain_safe hE d (fun l hl => (hd l hl).val) T s.2 hr
  unfold dirOk at h
  split at h
  · rename_i e
    obtain ⟨p', h1, h2⟩ := qeqO_some h x
    refine ⟨?_, hs _ h1⟩
    rw [hc _ h1, h2]
    unfold jder; rw [e]
  · rename_i q k e
    obtain ⟨p', h1, h2⟩ := qeqO_some h x
    refine ⟨?_, hs _ h1⟩
    rw [hc _ h1, h2]
    unfold jder; rw [e]; rfl
  · rename_i p r a k e
    rw [Bool.and_eq_true] at h
    obtain ⟨hr, h⟩ := h
    unfold qeqOO at h
    split at h
    · cases h
    · rename_i q hq
      obtain ⟨p', h1, h2⟩ := qeqO_some h x
      refine ⟨?_, hs _ h1⟩
      rw [hc _ h1, h2, ← multOf_sound (hG r hr) hq]
      unfold jder; rw [e]
  · cases h

/-! ## Divisions -/

/-- Does an expression divide by products of `z[36]`, `z[494]`, `z[1001]` only? -/
def E.safeCheck (V : JTree) : E → Bool
  | .z _ => true
  | .n _ => true
  | .qt _ => true
  | .neg a => a.safeCheck V
  | .add a b => (a.safeCheck V).and (b.safeCheck V)
  | .sub a b => (a.safeCheck V).and (b.safeCheck V)
  | .mul a b => (a.safeCheck V).and (b.safeCheck V)
  | .div a b => ((a.safeCheck V).and (b.safeCheck V)).and ((b.jpoly V).bind invOf).isSome
  | .pow a _ => a.safeCheck V
  | .hpow a _ => is35 a
  | .sin a => a.safeCheck V
  | .cos a => a.safeCheck V

theorem safeCheck_sound {x m : ℕ → ℝ} {V : JTree} (hE : JEnv x m V) (d : ℕ)
    (hm : ∀ l, Nat.testBit d l = true → ∀ q, jval V l = some q → m l = qeval x q)
    (e : E) (he : e.reads d = true) (h : e.safeCheck V = true) : e.Safe m := by
  induction e with
  | z l => trivial
  | n k => trivial
  | qt k => trivial
  | neg a iha => exact iha he h
  | add a b iha ihb =>
    simp only [E.reads, E.safeCheck, Bool.and_eq_true] at he h
    exact ⟨iha he.1 h.1, ihb he.2 h.2⟩
  | sub a b iha ihb =>
    simp only [E.reads, E.safeCheck, Bool.and_eq_true] at he h
    exact ⟨iha he.1 h.1, ihb he.2 h.2⟩
  | mul a b iha ihb =>
    simp only [E.reads, E.safeCheck, Bool.and_eq_true] at he h
    exact ⟨iha he.1 h.1, ihb he.2 h.2⟩
  | div a b iha ihb =>
    simp only [E.reads, E.safeCheck, Bool.and_eq_true] at he h
    refine ⟨⟨iha he.1 h.1.1, ihb he.2 h.1.2⟩, ?_⟩
    obtain ⟨i, hi⟩ := Option.isSome_iff_exists.mp h.2
    obtain ⟨b', hb, hi⟩ := Option.bind_eq_some_iff.mp hi
    rw [jpoly_sound hE d hm b he.2 b' hb]
    exact left_ne_zero_of_mul_eq_one (invOf_sound hE.rels hi)
  | pow a k iha => exact iha he h
  | hpow a k iha =>
    refine ⟨?_, ?_⟩
    · cases a <;> simp [is35, E.safeCheck] at h
      trivial
    · rw [is35_val h]; exact hE.pos
  | sin a iha => exact iha he h
  | cos a iha => exact iha he h

end BP.EL
