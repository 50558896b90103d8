import Verif.Props.Shipped
import Verif.Props.Conversions

/-!
# C153: the converted dictionary of Moore (2019)
-/

set_option linter.unusedSimpArgs false

namespace BP

open Real Matrix Spec

/-! ## Specification -/

/-- The bicycle of `moore2019_browser_jason` with the rider as part of the rear frame, in the parameters of
Meijaard and others (2007), to twelve decimals. -/
def Spec.converted : Dict ℚ :=
  [("w", 1.121), ("c", 0.0685808540382), ("lam", 0.399680398707), ("g", 9.81), ("mB", 93.36),
   ("xB", 0.311562774349), ("zB", -1.039724416915), ("IBxx", 14.244659994170), ("IByy", 15.413087962637),
   ("IBzz", 3.038318971402), ("IBxz", -1.612491657482), ("mH", 3.22), ("xH", 0.866949640247), ("zH", -0.748236400835),
   ("IHxx", 0.253355401601), ("IHyy", 0.245827910953), ("IHzz", 0.095568632905), ("IHxz", -0.072021729599),
   ("rR", 0.340958858855), ("mR", 3.11), ("IRxx", 0.090411431632), ("IRyy", 0.152391250767), ("rF", 0.34352982332),
   ("mF", 2.02), ("IFxx", 0.088382687080), ("IFyy", 0.149221207336)]

/-! ## The entries as expressions -/

namespace Box

/-- A range for the cosine from that of the half, for the proofs; no counterpart in the code. -/
def cos2 (a : Box) : Box := pt 2 * (a * pt (1 / 2)).cos.sq - pt 1
/-- A range for the sine from that of the half, for the proofs; no counterpart in the code. -/
def sin2 (a : Box) : Box := pt 2 * (a * pt (1 / 2)).sin * (a * pt (1 / 2)).cos

theorem Has.half {a : Box} {x : ℝ} (h : a.Has x) : (a * pt (1 / 2)).Has (x / 2) := by
  have := h.mul (has_pt (1 / 2))
  have e : x * ((1 / 2 : ℚ) : ℝ) = x / 2 := by push_cast; ring
  rwa [e] at this

theorem Has.cos2 {a : Box} {x : ℝ} (h : a.Has x) (hm : |(a * pt (1 / 2)).mid| ≤ 1) : a.cos2.Has (Real.cos x) := by
  have h2 : (pt 2).Has (2 : ℝ) := by have := has_pt 2; push_cast at this; exact this
  have h1 : (pt 1).Has (1 : ℝ) := by have := has_pt 1; push_cast at this; exact this
  have := (h2.mul (h.half.cos hm).sq).sub h1
  have e : Real.cos x = 2 * Real.cos (x / 2) ^ 2 - 1 := by rw [← Real.cos_two_mul]; congr 1; ring
  rw [e]; exact this

theorem Has.sin2 {a : Box} {x : ℝ} (h : a.Has x) (hm : |(a * pt (1 / 2)).mid| ≤ 1) : a.sin2.Has (Real.sin x) := by
  have h2 : (pt 2).Has (2 : ℝ) := by have := has_pt 2; push_cast at this; exact this
  have := (h2.mul (h.half.sin hm)).mul (h.half.cos hm)
  have e : Real.sin x = 2 * Real.sin (x / 2) * Real.cos (x / 2) := by rw [← Real.sin_two_mul]; congr 1; ring
  rw [e]; exact this

theorem Has.within {a : Box} {x : ℝ} (h : a.Has x) {q e : ℚ} (k : q - e ≤ a.lo ∧ a.hi ≤ q + e) :
    |x - (q : ℝ)| ≤ (e : ℝ) := by
  have h1 : ((q - e : ℚ) : ℝ) ≤ a.lo := by exact_mod_cast k.1
  have h2 : (a.hi : ℝ) ≤ ((q + e : ℚ) : ℝ) := by exact_mod_cast k.2
  push_cast at h1 h2
  rw [abs_le]
  constructor <;> linarith [h.1, h.2]

end Box

theorem principalInertia_entries (m a y b t : ℝ) :
    principalInertia m a y b t 0 0 = m * (cos t ^ 2 * a ^ 2 + sin t ^ 2 * b ^ 2) ∧
    principalInertia m a y b t 1 1 = m * y ^ 2 ∧
    principalInertia m a y b t 2 2 = m * (sin t ^ 2 * a ^ 2 + cos t ^ 2 * b ^ 2) ∧
    principalInertia m a y b t 0 2 = m * (sin t * cos t * (b ^ 2 - a ^ 2)) := by
  refine ⟨?_, ?_, ?_, ?_⟩ <;>
    simp [principalInertia, rotateInertiaTensor, rotY, Matrix.mul_apply, Fin.sum_univ_three, Matrix.diagonal_apply] <;> ring

/-- The ranges of the four entries of a principal tensor (conversions.py:87-92, 112-113), for the proof. -/
def tensorBox (m a y b C S : Box) : Box × Box × Box × Box :=
  (m * (C.sq * a.sq + S.sq * b.sq), m * y.sq, m * (S.sq * a.sq + C.sq * b.sq), m * (S * C * (b.sq - a.sq)))

theorem tensorBox_has {m a y b C S : Box} {vm va vy vb t : ℝ} (hm : m.Has vm) (ha : a.Has va) (hy : y.Has vy) (hb : b.Has vb)
    (hC : C.Has (cos t)) (hS : S.Has (sin t)) :
    (tensorBox m a y b C S).1.Has (principalInertia vm va vy vb t 0 0) ∧
    (tensorBox m a y b C S).2.1.Has (principalInertia vm va vy vb t 1 1) ∧
    (tensorBox m a y b C S).2.2.1.Has (principalInertia vm va vy vb t 2 2) ∧
    (tensorBox m a y b C S).2.2.2.Has (principalInertia vm va vy vb t 0 2) := by
  obtain ⟨e1, e2, e3, e4⟩ := principalInertia_entries vm va vy vb t
  rw [e1, e2, e3, e4]
  exact ⟨hm.mul ((hC.sq.mul ha.sq).add (hS.sq.mul hb.sq)), hm.mul hy.sq,
    hm.mul ((hS.sq.mul ha.sq).add (hC.sq.mul hb.sq)), hm.mul ((hS.mul hC).mul (hb.sq.sub ha.sq))⟩

/-- The number a dictionary holds, near to the decimal. -/
theorem Spec.Nearest.box {d : Dict ℚ} {f : Dict ℝ} (h : Nearest d f) {k : String} (hk : Dict.has d k = true) :
    (nearBox (Dict.getD d k 0)).Has (Dict.getD f k 0) := by
  obtain ⟨q, hq⟩ := (Dict.has_iff_exists _ _).1 hk
  obtain ⟨x, hx, hn⟩ := h k q hq
  rw [Dict.getD, Dict.getD, hq, hx]
  exact nearBox_has q x hn

/-- The range of an entry of `moore2019_browser_jason` (parameter_dicts.py:31-74) read as float, for the proof. -/
def pBox (k : String) : Box := nearBox (Dict.getD moore2019BrowserJason k 0)

theorem pBox_has {p : Dict ℝ} (h : Nearest moore2019BrowserJason p) (k : String)
    (hk : Dict.has moore2019BrowserJason k = true) : (pBox k).Has (Dict.getD p k 0) := h.box hk

/-- The range of the mass of the rear frame with rider (conversions.py:84), for the proof. -/
def mBox : Box := pBox "mD" + pBox "mP"
/-- The range of a coordinate of the mass centre (conversions.py:84), for the proof. -/
def comBox (k : String) : Box := (pBox "mD" * pBox (k ++ "D") + pBox "mP" * pBox (k ++ "P")) / mBox
/-- The range of the tensor of frame D (conversions.py:87-88), for the proof. -/
def tensorD : Box × Box × Box × Box :=
  tensorBox (pBox "mD") (pBox "kDaa") (pBox "kDyy") (pBox "kDbb") (pBox "alphaD").cos2 (pBox "alphaD").sin2
/-- The range of the tensor of the person (conversions.py:91-92), for the proof. -/
def tensorP : Box × Box × Box × Box :=
  tensorBox (pBox "mP") (pBox "kPaa") (pBox "kPyy") (pBox "kPbb") (pBox "alphaP").cos2 (pBox "alphaP").sin2
/-- The range of the tensor of the front frame (conversions.py:112-113), for the proof. -/
def tensorH : Box × Box × Box × Box :=
  tensorBox (pBox "mH") (pBox "kHaa") (pBox "kHyy") (pBox "kHbb") (pBox "alphaH").cos2 (pBox "alphaH").sin2

/-- The range of the difference of a coordinate of the mass centres, for the proof. -/
def offBox (k : String) (part : String) : Box := comBox k - pBox (k ++ part)

/-- The ranges of the entries of the converted dictionary (conversions.py:71-139), for the proof. -/
def convertedBox (k : String) : Box :=
  if k = "mB" then mBox
  else if k = "xB" then comBox "x"
  else if k = "zB" then comBox "z"
  else if k = "IBxx" then tensorD.1 + pBox "mD" * ((offBox "y" "D").sq + (offBox "z" "D").sq) +
    (tensorP.1 + pBox "mP" * ((offBox "y" "P").sq + (offBox "z" "P").sq))
  else if k = "IByy" then tensorD.2.1 + pBox "mD" * ((offBox "z" "D").sq + (offBox "x" "D").sq) +
    (tensorP.2.1 + pBox "mP" * ((offBox "z" "P").sq + (offBox "x" "P").sq))
  else if k = "IBzz" then tensorD.2.2.1 + pBox "mD" * ((offBox "x" "D").sq + (offBox "y" "D").sq) +
    (tensorP.2.2.1 + pBox "mP" * ((offBox "x" "P").sq + (offBox "y" "P").sq))
  else if k = "IBxz" then tensorD.2.2.2 + pBox "mD" * (-offBox "x" "D" * offBox "z" "D") +
    (tensorP.2.2.2 + pBox "mP" * (-offBox "x" "P" * offBox "z" "P"))
  else if k = "IHxx" then tensorH.1
  else if k = "IHyy" then tensorH.2.1
  else if k = "IHzz" then tensorH.2.2.1
  else if k = "IHxz" then tensorH.2.2.2
  else if k = "IRxx" then pBox "mR" * (pBox "kRaa").sq
  else if k = "IRyy" then pBox "mR" * (pBox "kRyy").sq
  else if k = "IFxx" then pBox "mF" * (pBox "kFaa").sq
  else if k = "IFyy" then pBox "mF" * (pBox "kFyy").sq
  else pBox k

theorem convertedBox_has {p : Dict ℝ} (h : Nearest moore2019BrowserJason p) {b : Dict ℝ}
    (hb : convertPrincipalToBenchmark p = .ok b) (k : String) (hk : k ∈ Dict.keys converted) :
    (convertedBox k).Has (Dict.getD b k 0) := by
  have hreq : Dict.require p principalKeys = .ok () := by
    rw [Dict.require_ok_iff]
    intro k hk
    have : ∀ k ∈ principalKeys, Dict.has moore2019BrowserJason k = true := by decide +kernel
    exact h.has (this k hk)
  unfold convertPrincipalToBenchmark at hb
  rw [hreq] at hb
  simp only [Except.ok.injEq] at hb
  have P := pBox_has h
  have hm : mBox.Has (p.getD "mD" 0 + p.getD "mP" 0) := (P "mD" (by decide +kernel)).add (P "mP" (by decide +kernel))
  have hm0 : 0 < mBox.lo := by decide +kernel
  have hcom : ∀ kD kP, Dict.has moore2019BrowserJason kD = true → Dict.has moore2019BrowserJason kP = true →
      ((pBox "mD" * pBox kD + pBox "mP" * pBox kP) / mBox).Has
        ((p.getD "mD" 0 * p.getD kD 0 + p.getD "mP" 0 * p.getD kP 0) / (p.getD "mD" 0 + p.getD "mP" 0)) :=
    fun kD kP h1 h2 => (((P "mD" (by decide +kernel)).mul (P kD h1)).add ((P "mP" (by decide +kernel)).mul (P kP h2))).div hm hm0
  have hD : (pBox "alphaD").Has (p.getD "alphaD" 0) := P "alphaD" (by decide +kernel)
  have hP : (pBox "alphaP").Has (p.getD "alphaP" 0) := P "alphaP" (by decide +kernel)
  have hH : (pBox "alphaH").Has (p.getD "alphaH" 0) := P "alphaH" (by decide +kernel)
  have tD := tensorBox_has (P "mD" (by decide +kernel)) (P "kDaa" (by decide +kernel)) (P "kDyy" (by decide +kernel))
    (P "kDbb" (by decide +kernel)) (hD.cos2 (by decide +kernel)) (hD.sin2 (by decide +kernel))
  have tP := tensorBox_has (P "mP" (by decide +kernel)) (P "kPaa" (by decide +kernel)) (P "kPyy" (by decide +kernel))
    (P "kPbb" (by decide +kernel)) (hP.cos2 (by decide +kernel)) (hP.sin2 (by decide +kernel))
  have tH := tensorBox_has (P "mH" (by decide +kernel)) (P "kHaa" (by decide +kernel)) (P "kHyy" (by decide +kernel))
    (P "kHbb" (by decide +kernel)) (hH.cos2 (by decide +kernel)) (hH.sin2 (by decide +kernel))
  generalize hID : principalInertia (p.getD "mD" 0) (p.getD "kDaa" 0) (p.getD "kDyy" 0) (p.getD "kDbb" 0)
    (p.getD "alphaD" 0) = ID at tD hb
  generalize hIP : principalInertia (p.getD "mP" 0) (p.getD "kPaa" 0) (p.getD "kPyy" 0) (p.getD "kPbb" 0)
    (p.getD "alphaP" 0) = IP at tP hb
  generalize hIH : principalInertia (p.getD "mH" 0) (p.getD "kHaa" 0) (p.getD "kHyy" 0) (p.getD "kHbb" 0)
    (p.getD "alphaH" 0) = IH at tH hb
  have cx := hcom "xD" "xP" (by decide +kernel) (by decide +kernel)
  have cy := hcom "yD" "yP" (by decide +kernel) (by decide +kernel)
  have cz := hcom "zD" "zP" (by decide +kernel) (by decide +kernel)
  have mD := P "mD" (by decide +kernel)
  have mP := P "mP" (by decide +kernel)
  have dxD := cx.sub (P "xD" (by decide +kernel))
  have dyD := cy.sub (P "yD" (by decide +kernel))
  have dzD := cz.sub (P "zD" (by decide +kernel))
  have dxP := cx.sub (P "xP" (by decide +kernel))
  have dyP := cy.sub (P "yP" (by decide +kernel))
  have dzP := cz.sub (P "zP" (by decide +kernel))
  have B1 := (tD.1.add (mD.mul (dyD.sq.add dzD.sq))).add (tP.1.add (mP.mul (dyP.sq.add dzP.sq)))
  have B2 := (tD.2.1.add (mD.mul (dzD.sq.add dxD.sq))).add (tP.2.1.add (mP.mul (dzP.sq.add dxP.sq)))
  have B3 := (tD.2.2.1.add (mD.mul (dxD.sq.add dyD.sq))).add (tP.2.2.1.add (mP.mul (dxP.sq.add dyP.sq)))
  have B4 := (tD.2.2.2.add (mD.mul (dxD.neg.mul dzD))).add (tP.2.2.2.add (mP.mul (dxP.neg.mul dzP)))
  have R1 := (P "mR" (by decide +kernel)).mul (P "kRaa" (by decide +kernel)).sq
  have R2 := (P "mR" (by decide +kernel)).mul (P "kRyy" (by decide +kernel)).sq
  have F1 := (P "mF" (by decide +kernel)).mul (P "kFaa" (by decide +kernel)).sq
  have F2 := (P "mF" (by decide +kernel)).mul (P "kFyy" (by decide +kernel)).sq
  have fin : ∀ {B B' : Box} {x y : ℝ}, B.Has x → B' = B → y = x → B'.Has y := by rintro _ _ _ _ h rfl rfl; exact h
  by_cases hpl : k ∈ ["w", "c", "lam", "g", "mH", "xH", "zH", "rR", "mR", "rF", "mF"]
  · have hk1 : Dict.has moore2019BrowserJason k = true := by
      revert k; decide +kernel
    have e1 : convertedBox k = pBox k := by
      simp only [List.mem_cons, List.not_mem_nil, or_false] at hpl
      rcases hpl with rfl | rfl | rfl | rfl | rfl | rfl | rfl | rfl | rfl | rfl | rfl <;> simp [convertedBox]
    have e2 : Dict.getD b k 0 = Dict.getD p k 0 := by
      rw [← hb]
      simp only [List.mem_cons, List.not_mem_nil, or_false] at hpl
      rcases hpl with rfl | rfl | rfl | rfl | rfl | rfl | rfl | rfl | rfl | rfl | rfl <;> simp [Dict.getD, Dict.find?]
    rw [e1, e2]
    exact P k hk1
  · have hk' : k ∈ ["mB", "xB", "zB", "IBxx", "IByy", "IBzz", "IBxz", "IHxx", "IHyy", "IHzz", "IHxz", "IRxx", "IRyy", "IFxx",
        "IFyy"] := by
      revert k; decide +kernel
    simp only [List.mem_cons, List.not_mem_nil, or_false] at hk'
    rw [← hb]
    rcases hk' with rfl | rfl | rfl | rfl | rfl | rfl | rfl | rfl | rfl | rfl | rfl | rfl | rfl | rfl | rfl
    · exact fin hm (by simp [convertedBox, comBox, offBox, tensorD, tensorP, tensorH]) (by simp [Dict.getD, Dict.find?, totalCom, sumCentralInertias, parallelAxis])
    · exact fin cx (by simp [convertedBox, comBox, offBox, tensorD, tensorP, tensorH]) (by simp [Dict.getD, Dict.find?, totalCom, sumCentralInertias, parallelAxis])
    · exact fin cz (by simp [convertedBox, comBox, offBox, tensorD, tensorP, tensorH]) (by simp [Dict.getD, Dict.find?, totalCom, sumCentralInertias, parallelAxis])
    · exact fin B1 (by simp [convertedBox, comBox, offBox, tensorD, tensorP, tensorH]) (by simp [Dict.getD, Dict.find?, totalCom, sumCentralInertias, parallelAxis])
    · exact fin B2 (by simp [convertedBox, comBox, offBox, tensorD, tensorP, tensorH]) (by simp [Dict.getD, Dict.find?, totalCom, sumCentralInertias, parallelAxis])
    · exact fin B3 (by simp [convertedBox, comBox, offBox, tensorD, tensorP, tensorH]) (by simp [Dict.getD, Dict.find?, totalCom, sumCentralInertias, parallelAxis])
    · exact fin B4 (by simp [convertedBox, comBox, offBox, tensorD, tensorP, tensorH]) (by simp [Dict.getD, Dict.find?, totalCom, sumCentralInertias, parallelAxis])
    · exact fin tH.1 (by simp [convertedBox, comBox, offBox, tensorD, tensorP, tensorH]) (by simp [Dict.getD, Dict.find?, totalCom, sumCentralInertias, parallelAxis])
    · exact fin tH.2.1 (by simp [convertedBox, comBox, offBox, tensorD, tensorP, tensorH]) (by simp [Dict.getD, Dict.find?, totalCom, sumCentralInertias, parallelAxis])
    · exact fin tH.2.2.1 (by simp [convertedBox, comBox, offBox, tensorD, tensorP, tensorH]) (by simp [Dict.getD, Dict.find?, totalCom, sumCentralInertias, parallelAxis])
    · exact fin tH.2.2.2 (by simp [convertedBox, comBox, offBox, tensorD, tensorP, tensorH]) (by simp [Dict.getD, Dict.find?, totalCom, sumCentralInertias, parallelAxis])
    · exact fin R1 (by simp [convertedBox, comBox, offBox, tensorD, tensorP, tensorH]) (by simp [Dict.getD, Dict.find?, totalCom, sumCentralInertias, parallelAxis])
    · exact fin R2 (by simp [convertedBox, comBox, offBox, tensorD, tensorP, tensorH]) (by simp [Dict.getD, Dict.find?, totalCom, sumCentralInertias, parallelAxis])
    · exact fin F1 (by simp [convertedBox, comBox, offBox, tensorD, tensorP, tensorH]) (by simp [Dict.getD, Dict.find?, totalCom, sumCentralInertias, parallelAxis])
    · exact fin F2 (by simp [convertedBox, comBox, offBox, tensorD, tensorP, tensorH]) (by simp [Dict.getD, Dict.find?, totalCom, sumCentralInertias, parallelAxis])

/-- **C153.** `moore2019_browser_jason`, with each decimal read as a float, converts, and the entries of the result are those of
`Spec.converted` to 2e-12. -/
theorem C153_converted (p : Dict ℝ) (h : Nearest moore2019BrowserJason p) :
    ∃ b, convertPrincipalToBenchmark p = .ok b ∧
      ∀ k q, Dict.find? converted k = some q → ∃ x, Dict.find? b k = some x ∧ |x - (q : ℝ)| ≤ 2 / 10 ^ 12 := by
  obtain ⟨b, hb⟩ := (C32_succeeds_iff p).1.2 fun k hk => by
    have : ∀ k ∈ principalKeys, Dict.has moore2019BrowserJason k = true := by decide +kernel
    exact h.has (this k hk)
  refine ⟨b, hb, fun k q hq => ?_⟩
  have hk : k ∈ Dict.keys converted := (Dict.has_iff_mem_keys _ _).1 ((Dict.has_iff_exists _ _).2 ⟨q, hq⟩)
  have hkb : k ∈ Dict.keys b := by
    rw [converted_keys p b hb]
    clear hq
    revert k; decide +kernel
  obtain ⟨x, hx⟩ := (Dict.has_iff_exists _ _).1 ((Dict.has_iff_mem_keys _ _).2 hkb)
  refine ⟨x, hx, ?_⟩
  have hB := convertedBox_has h hb k hk
  have e : Dict.getD b k 0 = x := by rw [Dict.getD, hx]; rfl
  rw [e] at hB
  have hw : ∀ k ∈ Dict.keys converted, Dict.getD converted k 0 - 2 / 10 ^ 12 ≤ (convertedBox k).lo ∧
      (convertedBox k).hi ≤ Dict.getD converted k 0 + 2 / 10 ^ 12 := by decide +kernel
  have hq' : Dict.getD converted k 0 = q := by rw [Dict.getD, hq]; rfl
  have := hw k hk
  rw [hq'] at this
  have := hB.within this
  push_cast at this
  exact this

/-- The range of an entry that is known to 2e-12, for the proof. -/
def roundBox (q : ℚ) : Box := ⟨q - 2 / 10 ^ 12, q + 2 / 10 ^ 12⟩

/-- **C153.** The converted bicycle is self-stable at exactly the speeds between two, 5.144114 m/s and 7.721694 m/s. -/
theorem C153_range (p : Dict ℝ) (h : Nearest moore2019BrowserJason p) (γ : ℝ) (hγ : |γ - 9.81| ≤ 9.81 / 2 ^ 53) :
    ∃ b, convertPrincipalToBenchmark p = .ok b ∧ ∃ vw vc : ℝ, |vw - 5.144114| < 1 / 10 ^ 6 ∧ |vc - 7.721694| < 1 / 10 ^ 6 ∧
      SelfStableBetween b γ vw vc := by
  obtain ⟨b, hb, hn⟩ := C153_converted p h
  refine ⟨b, hb, ?_⟩
  have hγ' : |γ - ((9.81 : ℚ) : ℝ)| ≤ |((9.81 : ℚ) : ℝ)| / 2 ^ 53 := by
    have e : ((9.81 : ℚ) : ℝ) = 9.81 := by norm_num
    rw [e, abs_of_pos (by norm_num : (0 : ℝ) < 9.81)]; exact hγ
  have hc : StableCheck.check (fun k => roundBox (Dict.getD converted k 0)) (nearBox 9.81) (5.144114 - 1 / 10 ^ 6)
    (5.144114 + 1 / 10 ^ 6) (7.721694 - 1 / 10 ^ 6) (7.721694 + 1 / 10 ^ 6) = true := by decide +kernel
  obtain ⟨d', c, hd, -, vw, vc, h1, h2, h3⟩ := StableCheck.check_range (d := b) (nearBox_has 9.81 γ hγ') hc fun k hk => by
    have : ∀ k ∈ canonKeys, Dict.has converted k = true := by decide +kernel
    obtain ⟨q, hq⟩ := (Dict.has_iff_exists _ _).1 (this k hk)
    obtain ⟨x, hx, hn⟩ := hn k q hq
    refine ⟨(Dict.has_iff_exists _ _).2 ⟨x, hx⟩, ?_⟩
    rw [Dict.getD, Dict.getD, hq, hx]
    rw [abs_le] at hn
    constructor <;> simp only [roundBox, Option.getD] <;> push_cast <;> linarith [hn.1, hn.2]
  push_cast at h1 h2
  refine ⟨vw, vc, ?_, ?_, d', c, hd, h3⟩ <;> rw [abs_lt]
  · constructor <;> linarith [h1.1, h1.2]
  · constructor <;> linarith [h2.1, h2.2]

/-- **C153.** The two dictionaries of the Browser with Jason do not describe one bicycle: that of Moore (2019), converted, is
self-stable from 0.146 m/s more on than that of Meijaard and others (2007), and to 0.611 m/s more. -/
theorem C153_differ (p f : Dict ℝ) (hp : Nearest moore2019BrowserJason p) (hf : Nearest browserJason f) (γ : ℝ)
    (hγ : |γ - 9.81| ≤ 9.81 / 2 ^ 53) :
    ∃ b, convertPrincipalToBenchmark p = .ok b ∧ ∃ vw vc vw' vc' : ℝ, SelfStableBetween b γ vw vc ∧
      SelfStableBetween f γ vw' vc' ∧ 0.146 < vw - vw' ∧ 0.611 < vc - vc' := by
  obtain ⟨b, hb, vw, vc, h1, h2, h3⟩ := C153_range p hp γ hγ
  obtain ⟨vw', vc', k1, k2, k3⟩ := (C150_floats γ hγ).2.1 f hf
  refine ⟨b, hb, vw, vc, vw', vc', h3, k3, ?_, ?_⟩
  · rw [abs_lt] at h1 k1; norm_num at h1 k1 ⊢; linarith [h1.1, k1.2]
  · rw [abs_lt] at h2 k2; norm_num at h2 k2 ⊢; linarith [h2.1, k2.2]

/-- **C153.** Through the classes: the set of the dictionary converts to a set of Meijaard2007, whose numbers are those of the
range. -/
theorem C153_set (b2m : Dict SVal → Except PyErr (Dict SVal)) (rider : Option Bool) (p : Dict ℝ)
    (h : Nearest moore2019BrowserJason p) (γ : ℝ) (hγ : |γ - 9.81| ≤ 9.81 / 2 ^ 53) :
    ∃ s t, construct .moore2019 (floats p) rider = .ok s ∧ toParameterization b2m s "Meijaard2007" = .ok t ∧
      t.kind = .meijaard ∧ t.rider = some true ∧
      ∃ vw vc : ℝ, |vw - 5.144114| < 1 / 10 ^ 6 ∧ |vc - 7.721694| < 1 / 10 ^ 6 ∧
        SelfStableBetween (nums t.parameters) γ vw vc := by
  have hs : Valid ⟨.moore2019, floats p, rider⟩ := floats_complete p _ fun k hk => by
    have : ∀ k ∈ SetKind.moore2019.parStrings.keys, Dict.has moore2019BrowserJason k = true := by decide +kernel
    exact h.has (this k hk)
  have hcs : construct .moore2019 (floats p) rider = .ok ⟨.moore2019, floats p, rider⟩ := by
    rcases C61_accepts_iff .moore2019 (floats p) rider with ⟨-, h2⟩ | ⟨h1, -⟩
    · exact h2
    · exact absurd hs h1
  obtain ⟨t, b, ht, hk, hr, hb, hn⟩ := (C62_moore2019_to_meijaard_partial b2m ⟨.moore2019, floats p, rider⟩ rfl hs).1
    fun k hk => by
      have : ∀ k ∈ ["yD", "yP", "yH"], Dict.has moore2019BrowserJason k = true := by decide +kernel
      show (floats p).has k = true
      rw [← has_nums, nums_floats]
      exact h.has (this k hk)
  simp only [nums_floats] at hb
  obtain ⟨b', hb', vw, vc, h1, h2, h3⟩ := C153_range p h γ hγ
  rw [hb] at hb'
  obtain rfl : b = b' := by simpa using hb'
  exact ⟨_, t, hcs, ht, hk, hr, vw, vc, h1, h2, by rw [hn]; exact h3⟩

/-- **C153.** In the model made of the converted set, a sweep over speeds returns stable state matrices at the speeds of the
range and at no others. -/
theorem C153_model_sweep (b2m : Dict SVal → Except PyErr (Dict SVal)) (rider : Option Bool) (p : Dict ℝ)
    (h : Nearest moore2019BrowserJason p) :
    ∃ s t, construct .moore2019 (floats p) rider = .ok s ∧ toParameterization b2m s "Meijaard2007" = .ok t ∧
      ∃ vw vc : ℝ, |vw - 5.144114| < 1 / 10 ^ 6 ∧ |vc - 7.721694| < 1 / 10 ^ 6 ∧
        ∀ (heap : Heap) (i : ℕ), heap[i]? = some (t.parameters.map fun e => (e.1, .num e.2)) → ∀ xs : List SVal,
          ∃ (as : List StateSpace) (ext : Heap),
            formStateSpaceMatrices i [("v", .arr xs)] heap = (.ok (.many as), heap ++ ext) ∧
            as.length = xs.length ∧ ∀ (j : ℕ) (hj : j < xs.length) (hj' : j < as.length),
              (∀ l : ℂ, IsEigenvalue (toC as[j].1) l → l.re < 0) ↔ vw < xs[j].val ∧ xs[j].val < vc := by
  have hg : |Dict.getD p "g" 0 - 9.81| ≤ 9.81 / 2 ^ 53 := by
    obtain ⟨x, hx, hn⟩ := h "g" 9.81 (by decide +kernel)
    have e : ((9.81 : ℚ) : ℝ) = 9.81 := by norm_num
    rw [e, abs_of_pos (by norm_num : (0 : ℝ) < 9.81)] at hn
    rw [Dict.getD, hx]
    exact hn
  obtain ⟨s, t, h1, h2, hk, -, vw, vc, h3, h4, h5⟩ := C153_set b2m rider p h _ hg
  refine ⟨s, t, h1, h2, vw, vc, h3, h4, fun heap i hi xs => ?_⟩
  obtain ⟨b, hb, -⟩ := C153_converted p h
  have hs : s = ⟨.moore2019, floats p, rider⟩ := by
    rcases C61_accepts_iff .moore2019 (floats p) rider with ⟨-, e⟩ | ⟨-, e⟩ <;> rw [e] at h1 <;> simp at h1
    exact h1.symm
  subst hs
  have hv : Valid ⟨.moore2019, floats p, rider⟩ := by
    rcases C61_accepts_iff .moore2019 (floats p) rider with ⟨e, -⟩ | ⟨-, e⟩
    · exact e
    · rw [e] at h1; simp at h1
  obtain ⟨t', b', ht', -, -, hb', hn⟩ := (C62_moore2019_to_meijaard_partial b2m _ rfl hv).1
    fun k hk => by
      have : ∀ k ∈ ["yD", "yP", "yH"], Dict.has moore2019BrowserJason k = true := by decide +kernel
      show (floats p).has k = true
      rw [← has_nums, nums_floats]
      exact h.has (this k hk)
  rw [h2] at ht'
  obtain rfl : t = t' := by simpa using ht'
  simp only [nums_floats] at hb'
  rw [hb] at hb'
  obtain rfl : b = b' := by simpa using hb'
  refine C150_model_sweep t.parameters vw vc (fun k hk => ?_) ?_ heap i hi xs
  · rw [← has_nums, hn, Dict.has_iff_mem_keys, converted_keys p b hb]
    revert k; decide
  · have : Dict.getD (nums t.parameters) "g" 0 = Dict.getD p "g" 0 := by
      rw [hn]
      unfold convertPrincipalToBenchmark at hb
      cases hr : Dict.require p principalKeys with
      | error e => rw [hr] at hb; simp at hb
      | ok _ =>
        rw [hr] at hb
        simp only [Except.ok.injEq] at hb
        rw [← hb]; simp [Dict.getD, Dict.find?]
    rw [this]
    exact h5

/-- non-vacuity of C153: the decimals themselves -/
example : Nearest moore2019BrowserJason (realDict moore2019BrowserJason) ∧ Nearest browserJason (realDict browserJason) ∧
    |(9.81 : ℝ) - 9.81| ≤ 9.81 / 2 ^ 53 :=
  ⟨nearest_self _, nearest_self _, by norm_num⟩

end BP
