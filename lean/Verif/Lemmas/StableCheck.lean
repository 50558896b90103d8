import Verif.Lemmas.StableRange

/-!
The signs of `RangeSigns`, computed with rational numbers from a range for each parameter.
-/

namespace BP

open Real Matrix Spec

/-- A dictionary of rational numbers, as real numbers. -/
def realDict (d : Dict ℚ) : Dict ℝ := d.map fun e => (e.1, (e.2 : ℝ))

theorem realDict_find (d : Dict ℚ) (k : String) : Dict.find? (realDict d) k = (Dict.find? d k).map fun q : ℚ => (q : ℝ) := by
  induction d with
  | nil => rfl
  | cons e d ih =>
    obtain ⟨k', q⟩ := e
    by_cases h : k' = k
    · simp [realDict, Dict.find?, h]
    · have := ih
      simp only [realDict] at this
      simp [realDict, Dict.find?, h, this]

theorem realDict_getD (d : Dict ℚ) (k : String) : Dict.getD (realDict d) k 0 = ((Dict.getD d k 0 : ℚ) : ℝ) := by
  rw [Dict.getD, Dict.getD, realDict_find]
  cases Dict.find? d k <;> simp

theorem realDict_has (d : Dict ℚ) (k : String) : Dict.has (realDict d) k = Dict.has d k := by
  rw [Bool.eq_iff_iff, Dict.has_iff_exists, Dict.has_iff_exists, realDict_find]
  cases Dict.find? d k <;> simp

namespace StableCheck

variable (B : String → Box)

local notation "C" => Box.cos (B "lam")
local notation "S" => Box.sin (B "lam")
local notation "pt" => Box.pt

/-- The range of the quantity of bicycle.py:105, for the proof. -/
def mT : Box := B "mR" + B "mB" + B "mH" + B "mF"
/-- The range of the quantity of bicycle.py:106, for the proof. -/
def xT : Box := (B "xB" * B "mB" + B "xH" * B "mH" + B "w" * B "mF") / mT B
/-- The range of the quantity of bicycle.py:107-108, for the proof. -/
def zT : Box := (-B "rR" * B "mR" + B "zB" * B "mB" + B "zH" * B "mH" - B "rF" * B "mF") / mT B
/-- The range of the quantity of bicycle.py:110-112, for the proof. -/
def ITxx : Box := B "IRxx" + B "IBxx" + B "IHxx" + B "IFxx" + B "mR" * (B "rR").sq + B "mB" * (B "zB").sq +
  B "mH" * (B "zH").sq + B "mF" * (B "rF").sq
/-- The range of the quantity of bicycle.py:113-114, for the proof. -/
def ITxz : Box := B "IBxz" + B "IHxz" - B "mB" * B "xB" * B "zB" - B "mH" * B "xH" * B "zH" + B "mF" * B "w" * B "rF"
/-- The range of the quantity of bicycle.py:117-118, for the proof. -/
def ITzz : Box := B "IRxx" + B "IBzz" + B "IHzz" + B "IFxx" + B "mB" * (B "xB").sq + B "mH" * (B "xH").sq + B "mF" * (B "w").sq
/-- The range of the quantity of bicycle.py:120, for the proof. -/
def mA : Box := B "mH" + B "mF"
/-- The range of the quantity of bicycle.py:121, for the proof. -/
def xA : Box := (B "xH" * B "mH" + B "w" * B "mF") / mA B
/-- The range of the quantity of bicycle.py:122, for the proof. -/
def zA : Box := (B "zH" * B "mH" - B "rF" * B "mF") / mA B
/-- The range of the quantity of bicycle.py:124-125, for the proof. -/
def IAxx : Box := B "IHxx" + B "IFxx" + B "mH" * (B "zH" - zA B).sq + B "mF" * (B "rF" + zA B).sq
/-- The range of the quantity of bicycle.py:126-127, for the proof. -/
def IAxz : Box := B "IHxz" - B "mH" * (B "xH" - xA B) * (B "zH" - zA B) + B "mF" * (B "w" - xA B) * (B "rF" + zA B)
/-- The range of the quantity of bicycle.py:128-129, for the proof. -/
def IAzz : Box := B "IHzz" + B "IFxx" + B "mH" * (B "xH" - xA B).sq + B "mF" * (B "w" - xA B).sq
/-- The range of the quantity of bicycle.py:130, for the proof. -/
def uA : Box := (xA B - B "w" - B "c") * C - zA B * S
/-- The range of the quantity of bicycle.py:131-133, for the proof. -/
def IAll : Box := mA B * (uA B).sq + IAxx B * (S).sq + pt 2 * IAxz B * S * C + IAzz B * (C).sq
/-- The range of the quantity of bicycle.py:134, for the proof. -/
def IAlx : Box := -mA B * uA B * zA B + IAxx B * S + IAxz B * C
/-- The range of the quantity of bicycle.py:135, for the proof. -/
def IAlz : Box := mA B * uA B * xA B + IAxz B * S + IAzz B * C
/-- The range of the quantity of bicycle.py:137, for the proof. -/
def mu : Box := B "c" / B "w" * C
/-- The range of the quantity of bicycle.py:140, for the proof. -/
def SF : Box := B "IFyy" / B "rF"
/-- The range of the quantity of bicycle.py:141, for the proof. -/
def ST : Box := B "IRyy" / B "rR" + SF B
/-- The range of the quantity of bicycle.py:142, for the proof. -/
def SA : Box := mA B * uA B + mu B * mT B * xT B
/-- The range of the quantity of bicycle.py:144-148, for the proof. -/
def M00 : Box := ITxx B
/-- The range of the quantity of bicycle.py:144-148, for the proof. -/
def M01 : Box := IAlx B + mu B * ITxz B
/-- The range of the quantity of bicycle.py:144-148, for the proof. -/
def M11 : Box := IAll B + pt 2 * mu B * IAlz B + (mu B).sq * ITzz B
/-- The range of the quantity of bicycle.py:150-154, for the proof. -/
def K00 : Box := mT B * zT B
/-- The range of the quantity of bicycle.py:150-154, for the proof. -/
def K01 : Box := -SA B
/-- The range of the quantity of bicycle.py:150-154, for the proof. -/
def K11 : Box := -SA B * S
/-- The range of the quantity of bicycle.py:156-160, for the proof. -/
def L01 : Box := (ST B - mT B * zT B) / B "w" * C
/-- The range of the quantity of bicycle.py:156-160, for the proof. -/
def L11 : Box := (SA B + SF B * S) / B "w" * C
/-- The range of the quantity of bicycle.py:162-168, for the proof. -/
def C01 : Box := mu B * ST B + SF B * C + ITxz B / B "w" * C - mu B * mT B * zT B
/-- The range of the quantity of bicycle.py:162-168, for the proof. -/
def C10 : Box := -(mu B * ST B + SF B * C)
/-- The range of the quantity of bicycle.py:162-168, for the proof. -/
def C11 : Box := IAlz B / B "w" * C + mu B * (SA B + ITzz B / B "w" * C)

/-- The ranges hold the parameters; lengths and masses that are divisors are positive, and the tilt is at most 1 rad. -/
structure Fits (B : String → Box) (d : Dict ℝ) : Prop where
  has : ∀ k ∈ canonKeys, (B k).Has (Dict.getD d k 0)
  tilt : |(B "lam").mid| ≤ 1
  w : 0 < (B "w").lo
  rR : 0 < (B "rR").lo
  rF : 0 < (B "rF").lo
  mT : 0 < (mT B).lo
  mA : 0 < (mA B).lo

/-- The canonical matrices of a dictionary. -/
noncomputable abbrev canonOf (d : Dict ℝ) : Canon := (Bench.ofDict d).canon

variable {B} {d : Dict ℝ}

/-- The ranges hold the canonical matrices. -/
structure Holds (B : String → Box) (d : Dict ℝ) : Prop where
  M00 : (M00 B).Has ((canonOf d).M 0 0)
  M01 : (M01 B).Has ((canonOf d).M 0 1)
  M11 : (M11 B).Has ((canonOf d).M 1 1)
  K00 : (K00 B).Has ((canonOf d).K0 0 0)
  K01 : (K01 B).Has ((canonOf d).K0 0 1)
  K11 : (K11 B).Has ((canonOf d).K0 1 1)
  L01 : (L01 B).Has ((canonOf d).K2 0 1)
  L11 : (L11 B).Has ((canonOf d).K2 1 1)
  C01 : (C01 B).Has ((canonOf d).C1 0 1)
  C10 : (C10 B).Has ((canonOf d).C1 1 0)
  C11 : (C11 B).Has ((canonOf d).C1 1 1)

theorem holds (h : Fits B d) : Holds B d := by
  set b := Bench.ofDict d with hb
  have vmR : (B "mR").Has b.mR := h.has "mR" (by decide)
  have vmB : (B "mB").Has b.mB := h.has "mB" (by decide)
  have vmH : (B "mH").Has b.mH := h.has "mH" (by decide)
  have vmF : (B "mF").Has b.mF := h.has "mF" (by decide)
  have vxB : (B "xB").Has b.xB := h.has "xB" (by decide)
  have vxH : (B "xH").Has b.xH := h.has "xH" (by decide)
  have vw : (B "w").Has b.w := h.has "w" (by decide)
  have vrR : (B "rR").Has b.rR := h.has "rR" (by decide)
  have vzB : (B "zB").Has b.zB := h.has "zB" (by decide)
  have vzH : (B "zH").Has b.zH := h.has "zH" (by decide)
  have vrF : (B "rF").Has b.rF := h.has "rF" (by decide)
  have vIRxx : (B "IRxx").Has b.IRxx := h.has "IRxx" (by decide)
  have vIBxx : (B "IBxx").Has b.IBxx := h.has "IBxx" (by decide)
  have vIHxx : (B "IHxx").Has b.IHxx := h.has "IHxx" (by decide)
  have vIFxx : (B "IFxx").Has b.IFxx := h.has "IFxx" (by decide)
  have vIBxz : (B "IBxz").Has b.IBxz := h.has "IBxz" (by decide)
  have vIHxz : (B "IHxz").Has b.IHxz := h.has "IHxz" (by decide)
  have vIBzz : (B "IBzz").Has b.IBzz := h.has "IBzz" (by decide)
  have vIHzz : (B "IHzz").Has b.IHzz := h.has "IHzz" (by decide)
  have vc : (B "c").Has b.c := h.has "c" (by decide)
  have vlam : (B "lam").Has b.lam := h.has "lam" (by decide)
  have vIRyy : (B "IRyy").Has b.IRyy := h.has "IRyy" (by decide)
  have vIFyy : (B "IFyy").Has b.IFyy := h.has "IFyy" (by decide)
  have hC := vlam.cos h.tilt
  have hS := vlam.sin h.tilt
  have two : (Box.pt 2).Has (2 : ℝ) := by have := Box.has_pt 2; push_cast at this; exact this
  have hmT : (mT B).Has b.mT := ((vmR.add vmB).add vmH).add vmF
  have hxT : (xT B).Has b.xT := (((vxB.mul vmB).add (vxH.mul vmH)).add (vw.mul vmF)).div hmT h.mT
  have hzT : (zT B).Has b.zT := ((((vrR.neg.mul vmR).add (vzB.mul vmB)).add (vzH.mul vmH)).sub (vrF.mul vmF)).div hmT h.mT
  have hTxx : (ITxx B).Has b.ITxx := (((((((vIRxx.add vIBxx).add vIHxx).add vIFxx).add (vmR.mul vrR.sq)).add
    (vmB.mul vzB.sq)).add (vmH.mul vzH.sq)).add (vmF.mul vrF.sq))
  have hTxz : (ITxz B).Has b.ITxz := ((((vIBxz.add vIHxz).sub ((vmB.mul vxB).mul vzB)).sub ((vmH.mul vxH).mul vzH)).add
    ((vmF.mul vw).mul vrF))
  have hTzz : (ITzz B).Has b.ITzz := ((((((vIRxx.add vIBzz).add vIHzz).add vIFxx).add (vmB.mul vxB.sq)).add
    (vmH.mul vxH.sq)).add (vmF.mul vw.sq))
  have hmA : (mA B).Has b.mA := vmH.add vmF
  have hxA : (xA B).Has b.xA := ((vxH.mul vmH).add (vw.mul vmF)).div hmA h.mA
  have hzA : (zA B).Has b.zA := ((vzH.mul vmH).sub (vrF.mul vmF)).div hmA h.mA
  have hAxx : (IAxx B).Has b.IAxx := ((vIHxx.add vIFxx).add (vmH.mul (vzH.sub hzA).sq)).add (vmF.mul (vrF.add hzA).sq)
  have hAxz : (IAxz B).Has b.IAxz := (vIHxz.sub ((vmH.mul (vxH.sub hxA)).mul (vzH.sub hzA))).add
    ((vmF.mul (vw.sub hxA)).mul (vrF.add hzA))
  have hAzz : (IAzz B).Has b.IAzz := ((vIHzz.add vIFxx).add (vmH.mul (vxH.sub hxA).sq)).add (vmF.mul (vw.sub hxA).sq)
  have hu : (uA B).Has b.uA := (((hxA.sub vw).sub vc).mul hC).sub (hzA.mul hS)
  have hll : (IAll B).Has b.IAll := (((hmA.mul hu.sq).add (hAxx.mul hS.sq)).add (((two.mul hAxz).mul hS).mul hC)).add
    (hAzz.mul hC.sq)
  have hlx : (IAlx B).Has b.IAlx := (((hmA.neg.mul hu).mul hzA).add (hAxx.mul hS)).add (hAxz.mul hC)
  have hlz : (IAlz B).Has b.IAlz := (((hmA.mul hu).mul hxA).add (hAxz.mul hS)).add (hAzz.mul hC)
  have hmu : (mu B).Has b.mu := (vc.div vw h.w).mul hC
  have hSF : (SF B).Has b.SF := vIFyy.div vrF h.rF
  have hST : (ST B).Has b.ST := (vIRyy.div vrR h.rR).add hSF
  have hSA : (SA B).Has b.SA := (hmA.mul hu).add ((hmu.mul hmT).mul hxT)
  refine ⟨hTxx, hlx.add (hmu.mul hTxz), (hll.add ((two.mul hmu).mul hlz)).add (hmu.sq.mul hTzz), hmT.mul hzT, hSA.neg,
    hSA.neg.mul hS, ((hST.sub (hmT.mul hzT)).div vw h.w).mul hC, ((hSA.add (hSF.mul hS)).div vw h.w).mul hC,
    (((hmu.mul hST).add (hSF.mul hC)).add ((hTxz.div vw h.w).mul hC)).sub ((hmu.mul hmT).mul hzT),
    ((hmu.mul hST).add (hSF.mul hC)).neg,
    ((hlz.div vw h.w).mul hC).add (hmu.mul (hSA.add ((hTzz.div vw h.w).mul hC)))⟩

/-- The ranges of the entries of the matrices, for the proofs. -/
structure Entries where
  M00 : Box
  M01 : Box
  M11 : Box
  K00 : Box
  K01 : Box
  K11 : Box
  L01 : Box
  L11 : Box
  C01 : Box
  C10 : Box
  C11 : Box

/-- The ranges hold the matrices, which have the form of bicycle.py:143-167. -/
structure Entries.Hold (E : Entries) (c : Canon) : Prop where
  M00 : E.M00.Has (c.M 0 0)
  M01 : E.M01.Has (c.M 0 1)
  M11 : E.M11.Has (c.M 1 1)
  K00 : E.K00.Has (c.K0 0 0)
  K01 : E.K01.Has (c.K0 0 1)
  K11 : E.K11.Has (c.K0 1 1)
  L01 : E.L01.Has (c.K2 0 1)
  L11 : E.L11.Has (c.K2 1 1)
  C01 : E.C01.Has (c.C1 0 1)
  C10 : E.C10.Has (c.C1 1 0)
  C11 : E.C11.Has (c.C1 1 1)
  z1 : c.M 1 0 = c.M 0 1
  z2 : c.K0 1 0 = c.K0 0 1
  z3 : c.K2 0 0 = 0
  z4 : c.K2 1 0 = 0
  z5 : c.C1 0 0 = 0

variable (E : Entries)

/-- A coefficient of the characteristic polynomial (bicycle.py:8-75) from det M, for the proof. -/
def mD : Box := E.M00 * E.M11 - E.M01 * E.M01
/-- A coefficient of the characteristic polynomial (bicycle.py:8-75) from M and C1, for the proof. -/
def m3 : Box := E.M00 * E.C11 - E.M01 * E.C10 - E.M01 * E.C01
/-- A coefficient of the characteristic polynomial (bicycle.py:8-75) from M and K0, for the proof. -/
def p0 (G : Box) : Box := G * (E.M00 * E.K11 + E.M11 * E.K00 - E.M01 * E.K01 - E.M01 * E.K01)
/-- A coefficient of the characteristic polynomial (bicycle.py:8-75) from C1, M and K2, for the proof. -/
def p2 : Box := -(E.C01 * E.C10) + (E.M00 * E.L11 - E.M01 * E.L01)
/-- A coefficient of the characteristic polynomial (bicycle.py:8-75) from C1 and K0, for the proof. -/
def q0 (G : Box) : Box := G * (E.C11 * E.K00 - E.C01 * E.K01 - E.C10 * E.K01)
/-- A coefficient of the characteristic polynomial (bicycle.py:8-75) from C1 and K2, for the proof. -/
def q2 : Box := -(E.C10 * E.L01)
/-- A coefficient of the characteristic polynomial (bicycle.py:8-75) from det K0, for the proof. -/
def r0 (G : Box) : Box := G * G * (E.K00 * E.K11 - E.K01 * E.K01)
/-- A coefficient of the characteristic polynomial (bicycle.py:8-75) from K0 and K2, for the proof. -/
def r1 (G : Box) : Box := G * (E.K00 * E.L11 - E.K01 * E.L01)
/-- The range of `weaveForm`, for the proof. -/
def weave (G : Box) (x : ℚ) : Box :=
  m3 E * (p0 E G + p2 E * Box.pt x) * (q0 E G + q2 E * Box.pt x) -
    mD E * ((q0 E G + q2 E * Box.pt x) * (q0 E G + q2 E * Box.pt x)) - (r0 E G + r1 E G * Box.pt x) * (m3 E * m3 E)

/-- The seventeen signs. -/
def signs (G : Box) (lo hi lo' hi' : ℚ) : Bool :=
  decide (0 < (mD E).lo) && decide (0 < (m3 E).lo) && decide (0 < (p2 E).lo) && decide (0 < (q2 E).lo) &&
  decide ((r1 E G).hi < 0) && decide (0 < (p0 E G + p2 E * Box.pt (lo * lo)).lo) &&
  decide (0 < (q0 E G + q2 E * Box.pt (lo * lo)).lo) &&
  decide (0 < (m3 E * p2 E * q2 E - mD E * (q2 E * q2 E)).lo) && decide ((weave E G 0).hi < 0) &&
  decide ((weave E G (lo * lo)).hi < 0) && decide (0 < (weave E G (hi * hi)).lo) &&
  decide (0 < (r0 E G + r1 E G * Box.pt (lo' * lo')).lo) && decide ((r0 E G + r1 E G * Box.pt (hi' * hi')).hi < 0) &&
  decide (0 < lo) && decide (lo < hi) && decide (0 < lo') && decide (lo' < hi')

/-- The ranges of the entries from those of the parameters, for the proof. -/
def entries (B : String → Box) : Entries :=
  ⟨M00 B, M01 B, M11 B, K00 B, K01 B, K11 B, L01 B, L11 B, C01 B, C10 B, C11 B⟩

/-- The conditions of `Fits` on the ranges and the seventeen signs. -/
def check (B : String → Box) (G : Box) (lo hi lo' hi' : ℚ) : Bool :=
  decide (|(B "lam").mid| ≤ 1) && decide (0 < (B "w").lo) && decide (0 < (B "rR").lo) && decide (0 < (B "rF").lo) &&
  decide (0 < (mT B).lo) && decide (0 < (mA B).lo) && signs (entries B) G lo hi lo' hi'

variable {E}

theorem signs_range {c : Canon} (H : E.Hold c) {G : Box} {g : ℝ} {lo hi lo' hi' : ℚ} (hG : G.Has g)
    (h : signs E G lo hi lo' hi' = true) : RangeSigns c g lo hi lo' hi' := by
  simp only [signs, Bool.and_eq_true, decide_eq_true_eq] at h
  obtain ⟨⟨⟨⟨⟨⟨⟨⟨⟨⟨⟨⟨⟨⟨⟨⟨a1, a2⟩, a3⟩, a4⟩, a5⟩, a6⟩, a7⟩, a8⟩, a9⟩, a10⟩, a11⟩, a12⟩, a13⟩, a14⟩, a15⟩, a16⟩, a17⟩ := h
  obtain ⟨z1, z2, z3, z4, z5⟩ := (⟨H.z1, H.z2, H.z3, H.z4, H.z5⟩ : _ ∧ _ ∧ _ ∧ _ ∧ _)
  have hmD : (mD E).Has c.M.det := by
    rw [det_fin_two, z1]; exact (H.M00.mul H.M11).sub (H.M01.mul H.M01)
  have hm3 : (m3 E).Has (mixed c.M c.C1) := by
    have e : mixed c.M c.C1 = c.M 0 0 * c.C1 1 1 - c.M 0 1 * c.C1 1 0 - c.M 0 1 * c.C1 0 1 := by
      rw [mixed, z1, z5]; ring
    rw [e]; exact ((H.M00.mul H.C11).sub (H.M01.mul H.C10)).sub (H.M01.mul H.C01)
  have hp0 : (p0 E G).Has (g * mixed c.M c.K0) := by
    have e : mixed c.M c.K0 = c.M 0 0 * c.K0 1 1 + c.M 1 1 * c.K0 0 0 - c.M 0 1 * c.K0 0 1 - c.M 0 1 * c.K0 0 1 := by
      rw [mixed, z1, z2]
    rw [e]
    exact hG.mul ((((H.M00.mul H.K11).add (H.M11.mul H.K00)).sub (H.M01.mul H.K01)).sub (H.M01.mul H.K01))
  have hp2 : (p2 E).Has (c.C1.det + mixed c.M c.K2) := by
    have e : c.C1.det + mixed c.M c.K2 = -(c.C1 0 1 * c.C1 1 0) + (c.M 0 0 * c.K2 1 1 - c.M 0 1 * c.K2 0 1) := by
      rw [mixed, det_fin_two, z1, z3, z4, z5]; ring
    rw [e]; exact (H.C01.mul H.C10).neg.add ((H.M00.mul H.L11).sub (H.M01.mul H.L01))
  have hq0 : (q0 E G).Has (g * mixed c.C1 c.K0) := by
    have e : mixed c.C1 c.K0 = c.C1 1 1 * c.K0 0 0 - c.C1 0 1 * c.K0 0 1 - c.C1 1 0 * c.K0 0 1 := by
      rw [mixed, z2, z5]; ring
    rw [e]; exact hG.mul (((H.C11.mul H.K00).sub (H.C01.mul H.K01)).sub (H.C10.mul H.K01))
  have hq2 : (q2 E).Has (mixed c.C1 c.K2) := by
    have e : mixed c.C1 c.K2 = -(c.C1 1 0 * c.K2 0 1) := by rw [mixed, z3, z4, z5]; ring
    rw [e]; exact (H.C10.mul H.L01).neg
  have hr0 : (r0 E G).Has (g ^ 2 * c.K0.det) := by
    rw [det_fin_two, z2]
    have : (G * G).Has (g ^ 2) := by rw [sq]; exact hG.mul hG
    exact this.mul ((H.K00.mul H.K11).sub (H.K01.mul H.K01))
  have hr1 : (r1 E G).Has (g * mixed c.K0 c.K2) := by
    have e : mixed c.K0 c.K2 = c.K0 0 0 * c.K2 1 1 - c.K0 0 1 * c.K2 0 1 := by rw [mixed, z2, z3, z4]; ring
    rw [e]; exact hG.mul ((H.K00.mul H.L11).sub (H.K01.mul H.L01))
  have hx : ∀ x : ℚ, (Box.pt x).Has (x : ℝ) := Box.has_pt
  have hsq : ∀ x : ℚ, (Box.pt (x * x)).Has ((x : ℝ) ^ 2) := fun x => by
    have := Box.has_pt (x * x); rw [sq]; push_cast at this; exact this
  have hw : ∀ (x : ℚ) (y : ℝ), (Box.pt x).Has y → (weave E G x).Has (weaveForm c g y) := fun x y hy => by
    have hQ := hq0.add (hq2.mul hy)
    have := (((hm3.mul (hp0.add (hp2.mul hy))).mul hQ).sub (hmD.mul (hQ.mul hQ))).sub
      ((hr0.add (hr1.mul hy)).mul (hm3.mul hm3))
    have e : weaveForm c g y = mixed c.M c.C1 * (g * mixed c.M c.K0 + (c.C1.det + mixed c.M c.K2) * y) *
        (g * mixed c.C1 c.K0 + mixed c.C1 c.K2 * y) -
        c.M.det * ((g * mixed c.C1 c.K0 + mixed c.C1 c.K2 * y) * (g * mixed c.C1 c.K0 + mixed c.C1 c.K2 * y)) -
        (g ^ 2 * c.K0.det + g * mixed c.K0 c.K2 * y) * (mixed c.M c.C1 * mixed c.M c.C1) := by
      rw [weaveForm]; ring
    rw [e]; exact this
  have h0 : (Box.pt 0).Has (0 : ℝ) := by have := Box.has_pt 0; push_cast at this; exact this
  have hlead : (m3 E * p2 E * q2 E - mD E * (q2 E * q2 E)).Has
      (mixed c.M c.C1 * (c.C1.det + mixed c.M c.K2) * mixed c.C1 c.K2 - c.M.det * mixed c.C1 c.K2 ^ 2) := by
    rw [sq]; exact ((hm3.mul hp2).mul hq2).sub (hmD.mul (hq2.mul hq2))
  exact ⟨hmD.pos a1, hm3.pos a2, hp2.pos a3, hq2.pos a4, hr1.negative a5, (hp0.add (hp2.mul (hsq lo))).pos a6,
    (hq0.add (hq2.mul (hsq lo))).pos a7, hlead.pos a8, (hw 0 0 h0).negative a9, (hw _ _ (hsq lo)).negative a10,
    (hw _ _ (hsq hi)).pos a11, (hr0.add (hr1.mul (hsq lo'))).pos a12, (hr0.add (hr1.mul (hsq hi'))).negative a13,
    by exact_mod_cast a14, by exact_mod_cast a15, by exact_mod_cast a16, by exact_mod_cast a17⟩

/-- The range of the speeds from the signs. -/
theorem range_of_entries {c : Canon} (H : E.Hold c) {G : Box} {g : ℝ} {lo hi lo' hi' : ℚ} (hG : G.Has g)
    (h : signs E G lo hi lo' hi' = true) :
    0 < c.M.det ∧ ∃ vw vc : ℝ, ((lo : ℝ) < vw ∧ vw < hi) ∧ ((lo' : ℝ) < vc ∧ vc < hi') ∧
      ∀ v : ℝ, Damped c v g ↔ vw < v ∧ v < vc := by
  have hs := signs_range H hG h
  exact ⟨hs.md, range_of_signs _ _ _ _ _ _ (by rw [det_fin_two, H.z3, H.z4]; ring) hs⟩

theorem check_range {B : String → Box} {d : Dict ℝ} {G : Box} {g : ℝ} {lo hi lo' hi' : ℚ} (hG : G.Has g)
    (h : check B G lo hi lo' hi' = true) (hk : ∀ k ∈ canonKeys, Dict.has d k = true ∧ (B k).Has (Dict.getD d k 0)) :
    ∃ (d' : Dict ℝ) (c : Canon), benchmarkParToCanonical d = (d', .ok c) ∧ 0 < c.M.det ∧
      ∃ vw vc : ℝ, ((lo : ℝ) < vw ∧ vw < hi) ∧ ((lo' : ℝ) < vc ∧ vc < hi') ∧
        ∀ v : ℝ, Damped c v g ↔ vw < v ∧ v < vc := by
  simp only [check, Bool.and_eq_true, decide_eq_true_eq] at h
  obtain ⟨⟨⟨⟨⟨⟨f1, f2⟩, f3⟩, f4⟩, f5⟩, f6⟩, hs⟩ := h
  have H := holds (d := d) ⟨fun k hk' => (hk k hk').2, f1, f2, f3, f4, f5, f6⟩
  refine ⟨_, _, canonical_of_keys _ fun k hk' => (hk k hk').1, range_of_entries (E := entries B) ?_ hG hs⟩
  exact ⟨H.M00, H.M01, H.M11, H.K00, H.K01, H.K11, H.L01, H.L11, H.C01, H.C10, H.C11,
    by simp [Bench.canon, Bench.M], by simp [Bench.canon, Bench.K0], by simp [Bench.canon, Bench.K2],
    by simp [Bench.canon, Bench.K2], by simp [Bench.canon, Bench.C1]⟩

end StableCheck

end BP
