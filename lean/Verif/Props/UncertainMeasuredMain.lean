import Verif.Props.UncertainMeasuredPlane
import Verif.Props.UncertainTilt

/-!
# C125: first-order propagation through calculate_benchmark_from_measured
-/

set_option linter.unusedSimpArgs false

namespace BP

open Matrix Spec

/-! ## Nominal values -/

section nominal
variable {ι : Type} [Fintype ι]

omit [Fintype ι] in
theorem nominalDict_out (mp : Dict (FloatOrU ι)) :
    nominalDict (mp.map fun e => (e.1, e.2.out)) = nominalMeasurements mp := by
  unfold nominalDict nominalMeasurements
  rw [List.map_map]
  rfl

/-- **C125.** The nominal values of the benchmark parameters and of the lines are the parameters and
lines computed from the nominal values of the measurements, and an exception is raised in the same
cases, apart from the `AttributeError` of C124. -/
theorem C125_nominal (newton : (ℝ → ℝ) → ℝ → Except PyErr ℝ) {matInv : MatInv ℝ}
    {matInvU : MatInv (UNum (Option ι))} (hI : NominalInv matInv matInvU) (mp : Dict (FloatOrU ι)) :
    calculateBenchmark newton matInv (nominalMeasurements mp) =
        (calculateBenchmarkU newton matInvU mp).map (fun r => (nominalDict r.1, nominalLines r.2)) ∨
      (calculateBenchmarkU newton matInvU mp = .error .attributeError ∧ mp.has "w" = false) := by
  rw [calculateBenchmark_eq]
  unfold calculateBenchmarkU
  rcases C124_nominal newton mp [] with h | ⟨h, hw⟩
  · left
    have h' : calculateBenchmarkGeometry newton (nominalMeasurements mp) [] =
        (calculateBenchmarkGeometryU newton mp []).map nominalDict := h
    rw [h']
    cases calculateBenchmarkGeometryU newton mp [] with
    | error e => rfl
    | ok geo =>
      rw [← nominalDict_out]
      exact benchmarkAfterGeometry_nom hI _ geo
  · right
    rw [h]
    exact ⟨rfl, hw⟩

end nominal

/-! ## What later steps leave alone -/

section frames
variable {R : Type} [PyNumT R]

theorem setCentresN_frame {lines : Dict (List (R × R × R))} {k : String}
    (hx : k.toList.head? ≠ some 'x') (hz : k.toList.head? ≠ some 'z') :
    ∀ {par out : Dict R}, setCentresN lines par = .ok out → out.find? k = par.find? k := by
  unfold setCentresN
  induction lines with
  | nil => intro par out h; cases h; rfl
  | cons pl lines ih =>
    intro par out h
    rw [List.foldlM_cons] at h
    cases hs : centreStepN par pl with
    | error e => rw [hs] at h; cases h
    | ok s1 =>
      rw [hs] at h
      rw [ih h]
      unfold centreStepN at hs
      cases hc : centerOfMassN (pl.2.map fun t => (t.1, t.2.1)) with
      | error e => rw [hc] at hs; cases hs
      | ok xy =>
        rw [hc] at hs
        simp only [Except.ok.injEq] at hs
        subst hs
        rw [Dict.find?_set_of_ne, Dict.find?_set_of_ne]
        · rintro rfl; simp at hx
        · rintro rfl; simp at hz

theorem setInPlaneN_frame {matInv : MatInv R} {mp : Dict R} {t : R} {lines : Dict (List (R × R × R))}
    {k : String} (hI : k.toList.head? ≠ some 'I') :
    ∀ {par out : Dict R}, setInPlaneN matInv mp t lines par = .ok out → out.find? k = par.find? k := by
  unfold setInPlaneN
  induction lines with
  | nil => intro par out h; cases h; rfl
  | cons pl lines ih =>
    intro par out h
    rw [List.foldlM_cons] at h
    cases hs : inPlaneStepN matInv mp t par pl with
    | error e => rw [hs] at h; cases h
    | ok s1 =>
      rw [hs] at h
      rw [ih h]
      unfold inPlaneStepN at hs
      dsimp only at hs
      cases hc : mp.require ((List.range pl.2.length).map (ttKey pl.1)) with
      | error e => rw [hc] at hs; cases hs
      | ok xy =>
        rw [hc] at hs
        simp only [Except.ok.injEq] at hs
        subst hs
        rw [Dict.find?_set_of_ne, Dict.find?_set_of_ne, Dict.find?_set_of_ne] <;>
          (rintro rfl; simp at hI)

theorem setYInertiasN_frame {mp : Dict R} {s : Bool} {u1 u2 : R} {k : String}
    (hI : k.toList.head? ≠ some 'I') (hg : k ≠ "g") {par out : Dict R}
    (h : setYInertiasN mp s u1 u2 par = .ok out) : out.find? k = par.find? k := by
  have hk : ∀ s : String, s.toList.head? = some 'I' → s ≠ k := fun s hs e => hI (e ▸ hs)
  unfold setYInertiasN at h
  dsimp only at h
  split at h
  · cases h
  · split_ifs at h <;> simp only [Except.ok.injEq] at h <;> subst h <;>
      simp [Dict.find?_set, hk "IGyy" rfl, hk "ISyy" rfl, hk "IHyy" rfl, hk "IByy" rfl, hk "IDyy" rfl,
        hk "IRyy" rfl, hk "IFyy" rfl, Ne.symm hg]

theorem setWheelInertiasN_frame {mp : Dict R} {t : R} {k : String}
    (hI : k.toList.head? ≠ some 'I') {par out : Dict R}
    (h : setWheelInertiasN mp t par = .ok out) : out.find? k = par.find? k := by
  have hk : ∀ s : String, s.toList.head? = some 'I' → s ≠ k := fun s hs e => hI (e ▸ hs)
  unfold setWheelInertiasN at h
  dsimp only at h
  split at h
  · cases h
  · simp only [Except.ok.injEq] at h
    subst h
    split_ifs <;> simp [Dict.find?_set, hk "IFxx" rfl, hk "IRxx" rfl, hk "IDxx" rfl]

theorem setSplitInertiaN_frame {k : String} (hI : k.toList.head? ≠ some 'I')
    (hH : k ∉ ["mH", "xH", "zH"]) {par out : Dict R} (h : setSplitInertiaN par = .ok out) :
    out.find? k = par.find? k := by
  have hk : ∀ s : String, s.toList.head? = some 'I' → s ≠ k := fun s hs e => hI (e ▸ hs)
  simp only [List.mem_cons, List.not_mem_nil, or_false, not_or, eq_comm (a := k)] at hH
  unfold setSplitInertiaN at h
  dsimp only at h
  split at h
  · simp only [Except.ok.injEq] at h
    subst h
    simp [Dict.find?_set, hk "IHxx" rfl, hk "IHxz" rfl, hk "IHyy" rfl, hk "IHzz" rfl, hH]
  · cases h
  · cases h

theorem setSplitCentreN_frame {k : String} (hH : k ∉ ["mH", "xH", "zH"]) (par : Dict R) :
    (setSplitCentreN par).find? k = par.find? k := by
  simp only [List.mem_cons, List.not_mem_nil, or_false, not_or, eq_comm (a := k)] at hH
  unfold setSplitCentreN
  simp [Dict.find?_set, hH]

theorem setMassesN_frame {mp : Dict R} {s : Bool} {k : String} (hm : k.toList.head? ≠ some 'm') {par out : Dict R}
    (h : setMassesN mp s par = .ok out) : out.find? k = par.find? k := by
  have hk : ∀ s : String, s.toList.head? = some 'm' → s ≠ k := fun s hs e => hm (e ▸ hs)
  unfold setMassesN at h
  dsimp only at h
  split at h
  · cases h
  · simp only [Except.ok.injEq] at h
    subst h
    split_ifs <;> simp [Dict.find?_set, hk "mB" rfl, hk "mF" rfl, hk "mR" rfl, hk "mD" rfl, hk "mS" rfl,
      hk "mG" rfl, hk "mH" rfl]

theorem tilt_kept {matInv : MatInv R} {mp geo par : Dict R} {lines : Dict (List (R × R × R))}
    (h : benchmarkAfterGeometry matInv mp geo = .ok (par, lines)) : par.find? "lam" = geo.find? "lam" := by
  have hb : ∀ {A B : Type} (x : Except PyErr A) (f : A → Except PyErr B) (y : B),
      (x >>= f) = .ok y → ∃ a, x = .ok a ∧ f a = .ok y := by
    intro A B x f y hxy
    cases x with
    | error e => cases hxy
    | ok a => exact ⟨a, rfl, hxy⟩
  unfold benchmarkAfterGeometry at h
  dsimp only at h
  obtain ⟨p1, e1, h⟩ := hb _ _ _ h
  obtain ⟨l, e2, h⟩ := hb _ _ _ h
  obtain ⟨ls, e3, h⟩ := hb _ _ _ h
  obtain ⟨p2, e4, h⟩ := hb _ _ _ h
  obtain ⟨u, e5, h⟩ := hb _ _ _ h
  obtain ⟨p4, e6, h⟩ := hb _ _ _ h
  obtain ⟨k, e7, h⟩ := hb _ _ _ h
  obtain ⟨p5, e8, h⟩ := hb _ _ _ h
  obtain ⟨p6, e9, h⟩ := hb _ _ _ h
  have e10 : par.find? "lam" = p6.find? "lam" := by
    split_ifs at h with hsp
    all_goals
      obtain ⟨p7, e10, h⟩ := hb _ _ _ h
      simp only [Except.ok.injEq, Prod.mk.injEq] at h
      rw [← h.1]
    · exact setSplitInertiaN_frame (by decide) (by decide) e10
    · simp only [Except.ok.injEq] at e10
      rw [e10]
  rw [e10, setInPlaneN_frame (by decide) e9, setWheelInertiasN_frame (by decide) e8,
    setYInertiasN_frame (by decide) (by decide) e6]
  have : (if isForkSplit mp = true then setSplitCentreN p2 else p2).find? "lam" = p2.find? "lam" := by
    split_ifs
    · exact setSplitCentreN_frame (by decide) p2
    · rfl
  rw [this, setCentresN_frame (by decide) (by decide) e4, setMassesN_frame (by decide) e1]

end frames

/-! ## The whole calculation after the geometry -/

section main
variable {ι : Type} [DecidableEq ι]

/-- The measurements and results at which no step of the calculation divides by zero, takes the
root or the tangent at a singularity or solves a singular system: `v` are the nominal values of the
measurements, `q` those of the results. -/
structure Spec.Regular (mp par : Dict (UNum ι)) (lines : Dict (List (UNum ι × UNum ι × UNum ι))) : Prop where
  tilt : Real.cos ((nominalDict par).getD "lam" 0) ≠ 0
  hung : ∀ k ∈ mp.keys, "alpha".toList.isPrefixOf k.toList = true →
    Real.cos ((nominalDict par).getD "lam" 0 - (nominalDict mp).getD k 0 * Real.pi / 180) ≠ 0
  three : ∀ pl ∈ lines, 3 ≤ pl.2.length
  rod : (nominalDict mp).getD "TtP1" 0 ≠ 0
  frame : (nominalDict par).getD "xB" 0 ≠ 0 ∨ (nominalDict par).getD "zB" 0 ≠ -(nominalDict par).getD "rR" 0
  fork : isForkSplit mp = false → (nominalDict par).getD "xH" 0 ≠ (nominalDict par).getD "w" 0 ∨
    (nominalDict par).getD "zH" 0 ≠ -(nominalDict par).getD "rF" 0
  mass : isForkSplit mp = true → (nominalDict par).getD "mS" 0 + (nominalDict par).getD "mG" 0 ≠ 0
  axes : isForkSplit mp = true → ((nominalDict mp).getD "h7" 0 - (nominalDict mp).getD "h6" 0 +
      (nominalDict mp).getD "d5" 0 / 2 - (nominalDict mp).getD "d6" 0 / 2) ^ 2 ≠
    ((nominalDict mp).getD "l" 0 - (nominalDict mp).getD "d5" 0 / 2 - (nominalDict mp).getD "d6" 0 / 2) ^ 2
  splitFork : isForkSplit mp = true → (nominalDict par).getD "xS" 0 ≠ (nominalDict par).getD "w" 0 ∨
    (nominalDict par).getD "zS" 0 ≠ -(nominalDict par).getD "rF" 0
  handlebar : isForkSplit mp = true → ∀ l u,
    calculateL1L2 ((nominalDict mp).getD "h6" 0) ((nominalDict mp).getD "h7" 0) ((nominalDict mp).getD "d5" 0)
      ((nominalDict mp).getD "d6" 0) ((nominalDict mp).getD "l" 0) = .ok l →
    fwheelToHandlebarRef ((nominalDict par).getD "lam" 0) l.1 l.2 = .ok u →
    (nominalDict par).getD "xG" 0 ≠ (nominalDict par).getD "w" 0 - u.1 ∨
      (nominalDict par).getD "zG" 0 ≠ -((nominalDict par).getD "rF" 0 + u.2)

omit [DecidableEq ι] in
theorem nominal_lit (d : Dict (UNum ι)) (k : String) : (nominalDict d).getD k 0 = (d.getD k (PyNum.lit 0)).nom :=
  getD_nominalDict d k

omit [DecidableEq ι] in
theorem getD_congr {d e : Dict (UNum ι)} {k : String} (h : d.find? k = e.find? k) (o : UNum ι) :
    d.getD k o = e.getD k o := by
  unfold Dict.getD; rw [h]

omit [DecidableEq ι] in
theorem sqDist_ne {x z : UNum ι} (h : x.nom ≠ 0 ∨ z.nom ≠ 0) : sqDist x z ≠ 0 := by
  unfold sqDist
  intro h0
  have h1 := sq_nonneg x.nom
  have h2 := sq_nonneg z.nom
  rcases h with h | h
  · exact h (pow_eq_zero_iff (two_ne_zero) |>.1 (by linarith))
  · exact h (pow_eq_zero_iff (two_ne_zero) |>.1 (by linarith))

theorem benchmark_tracks {matInv : MatInv ℝ} {matInvU : MatInv (UNum ι)} (hI : PropagatesInv matInv matInvU)
    {M G : Dict ((ι → ℝ) → ℝ)} {mp geo par : Dict (UNum ι)} {lines : Dict (List (UNum ι × UNum ι × UNum ι))}
    (hM : TracksD M mp) (hG : TracksD G geo) (h : benchmarkAfterGeometry matInvU mp geo = .ok (par, lines))
    (hR : Regular mp par lines) :
    ∃ D L, TracksD D par ∧ TracksL L lines ∧
      Near fun z => benchmarkAfterGeometry matInv (evalD M z) (evalD G z) = .ok (evalD D z, evalL L z) := by
  have hs : ∀ z, isForkSplit (evalD M z) = isForkSplit mp := fun z => by
    unfold isForkSplit; rw [hM.keys]
  have hb : ∀ {A B : Type} (x : Except PyErr A) (f : A → Except PyErr B) (y : B),
      (x >>= f) = .ok y → ∃ a, x = .ok a ∧ f a = .ok y := by
    intro A B x f y hxy
    cases x with
    | error e => cases hxy
    | ok a => exact ⟨a, rfl, hxy⟩
  unfold benchmarkAfterGeometry at h
  dsimp only at h
  obtain ⟨p1, e1, h⟩ := hb _ _ _ h
  obtain ⟨⟨l1, l2⟩, e2, h⟩ := hb _ _ _ h
  obtain ⟨ls, e3, h⟩ := hb _ _ _ h
  obtain ⟨p2, e4, h⟩ := hb _ _ _ h
  obtain ⟨⟨u1, u2⟩, e5, h⟩ := hb _ _ _ h
  obtain ⟨p4, e6, h⟩ := hb _ _ _ h
  obtain ⟨k, e7, h⟩ := hb _ _ _ h
  obtain ⟨p5, e8, h⟩ := hb _ _ _ h
  obtain ⟨p6, e9, h⟩ := hb _ _ _ h
  dsimp only at e3 e5 e6
  have e10 : (if isForkSplit mp then setSplitInertiaN p6 else .ok p6) = .ok par ∧ ls = lines := by
    split_ifs at h ⊢ with hsp
    all_goals
      obtain ⟨p7, e10, h⟩ := hb _ _ _ h
      simp only [Except.ok.injEq, Prod.mk.injEq] at h
      rw [← h.1]
      exact ⟨e10, h.2⟩
  clear h
  obtain ⟨e10, rfl⟩ := e10
  set p3 := if isForkSplit mp = true then setSplitCentreN p2 else p2 with hp3
  -- values that later steps do not change
  have f6 : ∀ k : String, k.toList.head? ≠ some 'I' → (isForkSplit mp = true → k ∉ ["mH", "xH", "zH"]) →
      par.find? k = p6.find? k := by
    intro k hk hH
    cases hsp : isForkSplit mp with
    | false => rw [hsp] at e10; simp only [Bool.false_eq_true, if_false, Except.ok.injEq] at e10; rw [e10]
    | true => rw [hsp] at e10; exact setSplitInertiaN_frame hk (hH hsp) e10
  have f3 : ∀ k : String, k.toList.head? ≠ some 'I' → k ≠ "g" → (isForkSplit mp = true → k ∉ ["mH", "xH", "zH"]) →
      par.find? k = p3.find? k := by
    intro k hk hg hH
    rw [f6 k hk hH, setInPlaneN_frame hk e9, setWheelInertiasN_frame hk e8, setYInertiasN_frame hk hg e6]
  have f2 : ∀ k : String, k.toList.head? ≠ some 'I' → k ≠ "g" → k ∉ ["mH", "xH", "zH"] →
      par.find? k = p2.find? k := by
    intro k hk hg hH
    rw [f3 k hk hg fun _ => hH, hp3]
    split_ifs
    · exact setSplitCentreN_frame hH p2
    · rfl
  have f1 : ∀ k : String, k.toList.head? ≠ some 'I' → k ≠ "g" → k ∉ ["mH", "xH", "zH"] →
      k.toList.head? ≠ some 'x' → k.toList.head? ≠ some 'z' → par.find? k = p1.find? k := by
    intro k hk hg hH hx hz
    rw [f2 k hk hg hH, setCentresN_frame hx hz e4]
  have qn : ∀ k, (nominalDict par).getD k 0 = (par.getD k (PyNum.lit 0)).nom := nominal_lit par
  have vn : ∀ k, (nominalDict mp).getD k 0 = (mp.getD k (PyNum.lit 0)).nom := nominal_lit mp
  have lam1 : par.getD "lam" (PyNum.lit 0) = p1.getD "lam" (PyNum.lit 0) :=
    getD_congr (f1 _ (by decide) (by decide) (by decide) (by decide) (by decide)) _
  have lam3 : par.getD "lam" (PyNum.lit 0) = p3.getD "lam" (PyNum.lit 0) :=
    getD_congr (f3 _ (by decide) (by decide) (fun _ => by decide)) _
  have g3 : ∀ k : String, k.toList.head? ≠ some 'I' → k ≠ "g" → (isForkSplit mp = true → k ∉ ["mH", "xH", "zH"]) →
      (p3.getD k (PyNum.lit 0)).nom = (nominalDict par).getD k 0 := fun k h1 h2 h3 => by
    rw [qn, getD_congr (f3 k h1 h2 h3)]
  -- the steps
  obtain ⟨D1, hD1, n1⟩ := setMasses_tracks hM hG e1
  obtain ⟨F1, F2, hl1, hl2, n2⟩ := splitLengths_tracks hM e2 (fun k => (nominalDict mp).getD k 0)
    (funext fun k => vn k) hR.axes
  obtain ⟨L, hL, n3⟩ := partComLines_tracks hM hD1 hl1 hl2 (by rw [← lam1, ← qn]; exact hR.tilt)
    (fun key hkey => by
      rw [← lam1, ← qn, ← vn]
      unfold alphaKeysN at hkey
      have hmem := (List.mem_insertionSort _).1 hkey
      rw [List.mem_filter] at hmem
      exact hR.hung key hmem.1 hmem.2) e3
  obtain ⟨⟨D2, hD2, n4⟩, hdist⟩ := setCentres_tracks hL hD1 e4
  have hm2 : isForkSplit mp = true →
      (p2.getD "mS" (PyNum.lit 0)).nom + (p2.getD "mG" (PyNum.lit 0)).nom ≠ 0 := fun hsp => by
    rw [← getD_congr (f2 "mS" (by decide) (by decide) (by decide)),
      ← getD_congr (f2 "mG" (by decide) (by decide) (by decide)), ← qn, ← qn]
    exact hR.mass hsp
  obtain ⟨D3, hD3, n5⟩ : ∃ D3, TracksD D3 p3 ∧
      ∀ z, (if isForkSplit mp = true then setSplitCentreN (evalD D2 z) else evalD D2 z) = evalD D3 z := by
    rw [hp3]
    cases hsp : isForkSplit mp with
    | false => exact ⟨D2, by simpa using hD2, fun z => by simp⟩
    | true =>
      obtain ⟨D3, hD3, n⟩ := setSplitCentre_tracks hD2 (hm2 hsp)
      exact ⟨D3, by simpa using hD3, fun z => by simpa using n z⟩
  obtain ⟨U1, U2, hU1, hU2, n6⟩ := splitRef_tracks hD3 (s := isForkSplit mp) hl1 hl2
    (by rw [← lam3, ← qn]; exact hR.tilt) e5
  have hu : isForkSplit mp = true → (nominalDict par).getD "xG" 0 ≠ (nominalDict par).getD "w" 0 - u1.nom ∨
      (nominalDict par).getD "zG" 0 ≠ -((nominalDict par).getD "rF" 0 + u2.nom) := by
    intro hsp
    refine hR.handlebar hsp (l1.nom, l2.nom) (u1.nom, u2.nom) ?_ ?_
    · have := splitLengths_nom mp (isForkSplit mp)
      rw [e2, splitLengths_real, hsp] at this
      unfold splitLengths at this
      simp only [if_true] at this
      cases hr : (nominalDict mp).require ["h6", "h7", "d5", "d6", "l"] with
      | error e => rw [hr] at this; cases this
      | ok _ => rw [hr] at this; exact this
    · have := splitRef_nom p3 (isForkSplit mp) l1 l2
      rw [e5, splitRef_real, hsp] at this
      unfold splitRef at this
      simp only [if_true] at this
      rw [nominal_lit, ← lam3, ← qn] at this
      exact this
  obtain ⟨D4, hD4, n7⟩ := setYInertias_tracks hM hD3 hU1 hU2 e6 (fun k => p3.getD k (PyNum.lit 0)) rfl
    (by
      apply sqDist_ne
      rcases hR.frame with h | h
      · left
        rw [g3 _ (by decide) (by decide) (fun _ => by decide)]
        exact h
      · right
        show (p3.getD "zB" (PyNum.lit 0)).nom + (p3.getD "rR" (PyNum.lit 0)).nom ≠ 0
        rw [g3 _ (by decide) (by decide) (fun _ => by decide), g3 _ (by decide) (by decide) (fun _ => by decide)]
        exact fun h0 => h (by linarith))
    (fun hsp => ⟨by
      apply sqDist_ne
      rcases hR.splitFork hsp with h | h
      · left
        show (p3.getD "xS" (PyNum.lit 0)).nom - (p3.getD "w" (PyNum.lit 0)).nom ≠ 0
        rw [g3 _ (by decide) (by decide) (fun _ => by decide), g3 _ (by decide) (by decide) (fun _ => by decide)]
        exact fun h0 => h (by linarith)
      · right
        show (p3.getD "zS" (PyNum.lit 0)).nom + (p3.getD "rF" (PyNum.lit 0)).nom ≠ 0
        rw [g3 _ (by decide) (by decide) (fun _ => by decide), g3 _ (by decide) (by decide) (fun _ => by decide)]
        exact fun h0 => h (by linarith), by
      apply sqDist_ne
      rcases hu hsp with h | h
      · left
        show (p3.getD "xG" (PyNum.lit 0)).nom - (p3.getD "w" (PyNum.lit 0)).nom + u1.nom ≠ 0
        rw [g3 _ (by decide) (by decide) (fun _ => by decide), g3 _ (by decide) (by decide) (fun _ => by decide)]
        exact fun h0 => h (by linarith)
      · right
        show (p3.getD "zG" (PyNum.lit 0)).nom + (p3.getD "rF" (PyNum.lit 0)).nom + u2.nom ≠ 0
        rw [g3 _ (by decide) (by decide) (fun _ => by decide), g3 _ (by decide) (by decide) (fun _ => by decide)]
        exact fun h0 => h (by linarith)⟩)
    (fun hsp => by
      apply sqDist_ne
      have hn : ∀ {P : Prop}, isForkSplit mp = true → P := fun h => by rw [hsp] at h; cases h
      rcases hR.fork hsp with h | h
      · left
        show (p3.getD "xH" (PyNum.lit 0)).nom - (p3.getD "w" (PyNum.lit 0)).nom ≠ 0
        rw [g3 _ (by decide) (by decide) hn, g3 _ (by decide) (by decide) hn]
        exact fun h0 => h (by linarith)
      · right
        show (p3.getD "zH" (PyNum.lit 0)).nom + (p3.getD "rF" (PyNum.lit 0)).nom ≠ 0
        rw [g3 _ (by decide) (by decide) hn, g3 _ (by decide) (by decide) hn]
        exact fun h0 => h (by linarith))
  obtain ⟨K, hK, n8⟩ := torsion_tracks hM e7 (by rw [← vn]; exact hR.rod)
  obtain ⟨D5, hD5, n9⟩ := setWheel_tracks hM hD4 hK e8
  obtain ⟨D6, hD6, n10⟩ := setInPlane_tracks hI hM hK hL hD5 hdist hR.three e9
  obtain ⟨D7, hD7, n11⟩ : ∃ D7, TracksD D7 par ∧
      Near fun z => (if isForkSplit mp = true then setSplitInertiaN (evalD D6 z) else .ok (evalD D6 z)) =
        .ok (evalD D7 z) := by
    cases hsp : isForkSplit mp with
    | false =>
      rw [hsp] at e10
      simp only [Bool.false_eq_true, if_false, Except.ok.injEq] at e10 ⊢
      exact ⟨D6, e10 ▸ hD6, Near.of_forall fun z => rfl⟩
    | true =>
      rw [hsp] at e10
      simp only [if_true] at e10 ⊢
      refine setSplitInertia_tracks hD6 e10 ?_
      rw [← getD_congr (f6 "mG" (by decide) (fun _ => by decide)),
        ← getD_congr (f6 "mS" (by decide) (fun _ => by decide)), ← qn, ← qn, add_comm]
      exact hR.mass hsp
  refine ⟨D7, L, hD7, hL, ?_⟩
  refine Near.mono (Near.and n1 (Near.and n2 (Near.and n3 (Near.and n4 (Near.and n6 (Near.and n7
    (Near.and n9 (Near.and n10 n11)))))))) fun z hz => ?_
  obtain ⟨z1, z2, z3, z4, z6, z7, z9, z10, z11⟩ := hz
  unfold benchmarkAfterGeometry
  simp only [hs, z1, okBind, z2, z3, z4, n5, z6, z7, n8, z9, z10, z11]
  cases hsp : isForkSplit mp with
  | false =>
    rw [hsp] at z11
    simp only [Bool.false_eq_true, if_false, Except.ok.injEq] at z11 ⊢
    rw [z11]
  | true =>
    rw [hsp] at z11
    simp only [if_true] at z11 ⊢
    rw [z11, okBind]

/-! ## With a measured wheelbase -/

/-- The measured quantities as functions of all independent variables. -/
def quantities (F : String → (ι → ℝ) → ℝ) (mp : Dict (FloatOrU ι)) : Dict ((Option ι → ℝ) → ℝ) :=
  mp.map fun e => (e.1, fun z => F e.1 fun i => z (some i))

/-- The measurements as numbers with uncertainties. -/
noncomputable def outDict (mp : Dict (FloatOrU ι)) : Dict (UNum (Option ι)) := mp.map fun e => (e.1, e.2.out)

omit [DecidableEq ι] in
theorem evalD_quantities (F : String → (ι → ℝ) → ℝ) (mp : Dict (FloatOrU ι)) (z : Option ι → ℝ) :
    evalD (quantities F mp) z = measurementsAt F mp fun i => z (some i) := by
  unfold evalD quantities measurementsAt
  rw [List.map_map]
  rfl

theorem quantities_track {F : String → (ι → ℝ) → ℝ} {mp : Dict (FloatOrU ι)}
    (hF : ∀ e ∈ mp, Tracks (F e.1) e.2.num) : TracksD (quantities F mp) (outDict mp) := by
  unfold TracksD quantities outDict
  rw [List.forall₂_map_left_iff, List.forall₂_map_right_iff, List.forall₂_same]
  exact fun e he => ⟨rfl, (hF e he).lift⟩

omit [DecidableEq ι] in
theorem find?_outDict (mp : Dict (FloatOrU ι)) (k : String) :
    (outDict mp).find? k = (mp.find? k).map FloatOrU.out :=
  find?_map_key (fun _ (x : FloatOrU ι) => x.out) mp k

omit [DecidableEq ι] in
theorem getD_outDict (mp : Dict (FloatOrU ι)) (k : String) :
    (outDict mp).getD k (PyNum.lit 0) = (mp.getD k (.float 0)).out := by
  simp only [Dict.getD, find?_outDict]
  cases mp.find? k with
  | none =>
    show (PyNum.lit 0 : UNum (Option ι)) = (PyNum.lit 0 : UNum ι).lift
    exact (hom_lift.lit 0).symm
  | some x => rfl

omit [DecidableEq ι] in
theorem require_outDict (mp : Dict (FloatOrU ι)) (ks : List String) : (outDict mp).require ks = mp.require ks := by
  induction ks with
  | nil => rfl
  | cons k ks ih =>
    simp only [Dict.require, find?_outDict, ih]
    cases mp.find? k <;> rfl

omit [DecidableEq ι] in
theorem has_outDict (mp : Dict (FloatOrU ι)) (k : String) : (outDict mp).has k = mp.has k := by
  simp only [Dict.has, find?_outDict, Option.isSome_map]

theorem lateral_tracks {M D : Dict ((Option ι → ℝ) → ℝ)} {mp : Dict (FloatOrU ι)} {d : Dict (UNum (Option ι))}
    (hM : TracksD M (outDict mp)) (hD : TracksD D d) :
    ∃ D', TracksD D' (transferLateralU mp d) ∧ ∀ z, transferLateral (evalD M z) (evalD D z) = evalD D' z := by
  unfold transferLateralU transferLateral
  simp only [find?_evalD]
  rcases hM.find "xcl" with ⟨h1, h2⟩ | ⟨f, u, h1, h2, hT⟩
  · rw [find?_outDict, Option.map_eq_none_iff] at h2
    rw [h1, h2]
    exact ⟨D, hD, fun z => rfl⟩
  · rw [find?_outDict, Option.map_eq_some_iff] at h2
    obtain ⟨x, hx, rfl⟩ := h2
    rw [h1, hx]
    rcases hM.find "zcl" with ⟨h3, h4⟩ | ⟨g, w, h3, h4, hT'⟩
    · rw [find?_outDict, Option.map_eq_none_iff] at h4
      rw [h3, h4]
      exact ⟨_, hD.set "xcl" hT, fun z => by simp only [evalD_set, Option.map_some, Option.map_none]⟩
    · rw [find?_outDict, Option.map_eq_some_iff] at h4
      obtain ⟨y, hy, rfl⟩ := h4
      rw [h3, hy]
      exact ⟨_, (hD.set "xcl" hT).set "zcl" hT', fun z => by simp only [evalD_set, Option.map_some]⟩

theorem geometry_tracks [Fintype ι] {newton : (ℝ → ℝ) → ℝ → Except PyErr ℝ} {F : String → (ι → ℝ) → ℝ}
    {mp : Dict (FloatOrU ι)} (hF : ∀ e ∈ mp, Tracks (F e.1) e.2.num) (hw : mp.has "w" = true)
    (hnF : (nominalMeasurements mp).getD "nF" 0 ≠ 0) (hnR : (nominalMeasurements mp).getD "nR" 0 ≠ 0)
    {geo : Dict (UNum (Option ι))} (h : calculateBenchmarkGeometryU newton mp [] = .ok geo)
    (hc : Real.cos ((nominalDict geo).getD "lam" 0) ≠ 0) :
    ∃ D, TracksD D geo ∧ ∀ z, calculateBenchmarkGeometry newton (measurementsAt F mp fun i => z (some i)) [] =
      .ok (evalD D z) := by
  have hM := quantities_track hF
  have hev := evalD_quantities F mp
  generalize quantities F mp = M at hM hev
  have v : ∀ k, Tracks (fun z => (evalD M z).getD k 0) (mp.getD k (.float 0)).out := fun k => by
    rw [← getD_outDict]; exact hM.getD k
  have two : (PyNum.lit 2 : UNum (Option ι)).nom ≠ 0 := by show (2 : ℝ) ≠ 0; norm_num
  have out_eq : ∀ x : FloatOrU ι, x.out = x.num.lift := fun _ => rfl
  have hrad : ∀ d n, (mp.getD n (.float 0)).num.nom ≠ 0 →
      Tracks (fun z => wheelRadius ((evalD M z).getD d 0) ((evalD M z).getD n 0))
        (wheelRadiusN (mp.getD d (.float 0)) (mp.getD n (.float 0))).out := by
    intro d n hn
    rw [out_eq, hom_num.wheelRadius, hom_lift.wheelRadius]
    refine (((v d).div (Tracks.lit 2) ?_).div (Tracks.lit Real.pi) ?_).div (v n) ?_
    · exact two
    · exact Real.pi_ne_zero
    · exact hn
  unfold calculateBenchmarkGeometryU at h
  dsimp only at h
  cases hr1 : mp.require ["dF", "nF", "dR", "nR"] with
  | error e => rw [hr1] at h; cases h
  | ok _ =>
    rw [hr1] at h
    dsimp only at h
    unfold frameGeometryU at h
    simp only [if_pos hw] at h
    cases hr2 : mp.require ["gamma", "w", "f"] with
    | error e => rw [hr2] at h; cases h
    | ok _ =>
      rw [hr2] at h
      simp only [Except.ok.injEq] at h
      have rF := hrad "dF" "nF" (by
        rw [getD_nominalMeasurements] at hnF; exact hnF)
      have rR := hrad "dR" "nR" (by
        rw [getD_nominalMeasurements] at hnR; exact hnR)
      have lam : Tracks (fun z => Real.pi / 180 * (90 - (evalD M z).getD "gamma" 0))
          (PyNum.lit (Real.pi / 180) * (PyNum.lit 90 - mp.getD "gamma" (.float 0)) : FloatOrU ι).out := by
        rw [out_eq, hom_num.mul, hom_num.sub, hom_num.lit, hom_num.lit, hom_lift.mul, hom_lift.sub, hom_lift.lit,
          hom_lift.lit]
        exact (Tracks.lit _).mul ((Tracks.lit _).sub (v "gamma"))
      have hlam : (nominalDict geo).getD "lam" 0 =
          (PyNum.lit (Real.pi / 180) * (PyNum.lit 90 - mp.getD "gamma" (.float 0)) : FloatOrU ι).out.nom := by
        rw [nominal_lit, ← h]
        congr 1
        refine Dict.getD_eq_of_find? _ _ _ _ ?_
        unfold transferLateralU
        cases mp.find? "xcl" with
        | none => simp [Dict.find?_set]
        | some x => cases mp.find? "zcl" <;> simp [Dict.find?_set]
      have tr := ((rF.mul lam.sin).sub (v "f")).div lam.cos (by rw [hlam] at hc; exact hc)
      have none : TracksD ([] : Dict ((Option ι → ℝ) → ℝ)) [] := List.Forall₂.nil
      have base := (((none.set "rF" rF).set "rR" rR).set "lam" lam).set "w" (v "w")
      have base := base.set "c" tr
      obtain ⟨D, hD, hl⟩ := lateral_tracks hM base
      rw [← h]
      refine ⟨D, hD, fun z => ?_⟩
      rw [← hev, ← hl]
      unfold calculateBenchmarkGeometry frameGeometry
      simp only [hM.require, require_outDict, hr1, hr2, hM.has, has_outDict, hw, if_true, evalD_set]
      rfl

/-- A deviation of the measured variables, the new variable at its nominal value. -/
def extend (z : ι → ℝ) : Option ι → ℝ := fun i => i.elim 0 z

omit [DecidableEq ι] in
theorem extend_zero : extend (0 : ι → ℝ) = 0 := by
  funext i
  cases i <;> rfl

theorem extend_single (i : ι) (t : ℝ) : extend (Pi.single i t) = Pi.single (some i) t := by
  funext j
  cases j with
  | none => rw [Pi.single_eq_of_ne (by simp)]; rfl
  | some j =>
    show (Pi.single i t : ι → ℝ) j = _
    by_cases hj : j = i
    · subst hj; simp
    · rw [Pi.single_eq_of_ne hj, Pi.single_eq_of_ne (by simpa using hj)]

theorem single_none (t : ℝ) : (fun i => (Pi.single none t : Option ι → ℝ) (some i)) = 0 := by
  funext i
  rw [Pi.single_eq_of_ne (by simp)]
  rfl

/-- **C125, the part that holds.** With a measured wheelbase, at regular measurements: for small
deviations of any one variable the calculation from the true measurements succeeds with the same
keys, and every benchmark parameter represents to first order the parameter computed from them.
(Without a measured wheelbase the tilt loses its correlations, C124.) -/
theorem C125_first_order_partial [Fintype ι] (newton : (ℝ → ℝ) → ℝ → Except PyErr ℝ) {matInv : MatInv ℝ}
    {matInvU : MatInv (UNum (Option ι))} (hI : PropagatesInv matInv matInvU) (mp : Dict (FloatOrU ι))
    (F : String → (ι → ℝ) → ℝ) (hF : ∀ e ∈ mp, Tracks (F e.1) e.2.num) (hw : mp.has "w" = true)
    (hnF : (nominalMeasurements mp).getD "nF" 0 ≠ 0) (hnR : (nominalMeasurements mp).getD "nR" 0 ≠ 0)
    (par : Dict (UNum (Option ι))) (lines : Dict (List (UNum (Option ι) × UNum (Option ι) × UNum (Option ι))))
    (h : calculateBenchmarkU newton matInvU mp = .ok (par, lines))
    (hR : Regular (mp.map fun e => (e.1, e.2.out)) par lines) :
    ∃ f : String → (ι → ℝ) → ℝ,
      (∀ k u, par.find? k = some u → ∃ u', u = UNum.lift u' ∧ Tracks (f k) u') ∧
      Near fun z => ∃ par' lines', calculateBenchmark newton matInv (measurementsAt F mp z) = .ok (par', lines') ∧
        par'.keys = par.keys ∧ ∀ k ∈ par.keys, par'.find? k = some (f k z) := by
  unfold calculateBenchmarkU at h
  cases hg : calculateBenchmarkGeometryU newton mp [] with
  | error e => rw [hg] at h; cases h
  | ok geo =>
    rw [hg] at h
    have h : benchmarkAfterGeometry matInvU (outDict mp) geo = .ok (par, lines) := h
    have hlam : (nominalDict par).getD "lam" 0 = (nominalDict geo).getD "lam" 0 := by
      rw [nominal_lit, nominal_lit, getD_congr (tilt_kept h)]
    obtain ⟨G, hG, hgz⟩ := geometry_tracks hF hw hnF hnR hg (by rw [← hlam]; exact hR.tilt)
    obtain ⟨D, L, hD, hL, hn⟩ := benchmark_tracks hI (quantities_track hF) hG h hR
    have hn' : Near fun z => calculateBenchmark newton matInv (measurementsAt F mp fun i => z (some i)) =
        .ok (evalD D z, evalL L z) := by
      refine Near.mono hn fun z hz => ?_
      rw [calculateBenchmark_eq, hgz z, ← evalD_quantities]
      exact hz
    refine ⟨fun k z => (evalD D (extend z)).getD k 0, ?_, ?_⟩
    · intro k u hu
      rcases hD.find k with ⟨-, h2⟩ | ⟨g, u', h1, h2, hT⟩
      · rw [hu] at h2; cases h2
      · rw [hu] at h2
        cases h2
        have hf : ∀ z, (evalD D z).getD k 0 = g z := fun z =>
          Dict.getD_eq_of_find? _ _ _ _ (by rw [find?_evalD, h1]; rfl)
        refine ⟨⟨u.nom, fun i => u.lin (some i)⟩, ?_, ?_, fun i => ?_⟩
        · have h0 : u.lin none = 0 := by
            refine (hT.2 none).unique ?_
            have hc : (fun t : ℝ => g (Pi.single none t)) =ᶠ[nhds 0] fun _ => g 0 := by
              filter_upwards [hn'.2 none] with t ht
              have h0 : calculateBenchmark newton matInv (measurementsAt F mp 0) = .ok (evalD D 0, evalL L 0) := hn'.1
              rw [single_none] at ht
              rw [ht] at h0
              simp only [Except.ok.injEq, Prod.mk.injEq] at h0
              rw [← hf, ← hf, h0.1]
            exact (hasDerivAt_const (0 : ℝ) (g 0)).congr_of_eventuallyEq hc
          unfold UNum.lift
          cases u with
          | mk a l =>
            dsimp only at h0 ⊢
            congr 1
            funext i
            cases i with
            | none => exact h0
            | some i => rfl
        · show (evalD D (extend 0)).getD k 0 = u.nom
          rw [hf, extend_zero, hT.1]
        · simp only [hf, extend_single]
          exact hT.2 (some i)
    · have hP : ∀ z, (calculateBenchmark newton matInv (measurementsAt F mp z) =
            .ok (evalD D (extend z), evalL L (extend z))) →
          ∃ par' lines', calculateBenchmark newton matInv (measurementsAt F mp z) = .ok (par', lines') ∧
            par'.keys = par.keys ∧ ∀ k ∈ par.keys, par'.find? k = some ((evalD D (extend z)).getD k 0) := by
        intro z hz
        refine ⟨_, _, hz, hD.keys _, fun k hk => ?_⟩
        rw [← hD.keys (extend z), ← Dict.has_iff_mem_keys, Dict.has_iff_exists] at hk
        obtain ⟨x, hx⟩ := hk
        rw [hx, Dict.getD_eq_of_find? _ _ _ _ hx]
      refine ⟨hP 0 ?_, fun i => ?_⟩
      · have := hn'.1
        rw [extend_zero]
        exact this
      · filter_upwards [hn'.2 (some i)] with t ht
        apply hP
        rw [extend_single]
        have e : (fun j => (Pi.single (some i) t : Option ι → ℝ) (some j)) = Pi.single i t := by
          rw [← extend_single]; rfl
        rw [e] at ht
        exact ht

end main

end BP
