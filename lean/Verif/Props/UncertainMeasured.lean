import Verif.Model.UncertainMeasured
import Verif.Props.UncertainGeometry

/-!
# C125: uncertainties of the benchmark parameters computed from the measurements
-/

set_option linter.unusedSimpArgs false

namespace BP

open Matrix Spec

/-! ## For real numbers the functions are those of the model without uncertainties -/

theorem sumN_real (l : List ℝ) : sumN l = l.sum := rfl

theorem calculateL1L2_real (h6 h7 d5 d6 l : ℝ) :
    calculateL1L2N h6 h7 d5 d6 l = calculateL1L2 h6 h7 d5 d6 l := by
  unfold calculateL1L2N calculateL1L2
  simp only [PyNumT.val, PyNum.lit, id]
  rfl

theorem fwheel_real (lam l1 l2 : ℝ) : fwheelToHandlebarRefN lam l1 l2 = fwheelToHandlebarRef lam l1 l2 := by
  unfold fwheelToHandlebarRefN fwheelToHandlebarRef
  simp only [PyNumT.val, PyNum.lit, id]
  rfl

theorem intersection_real (l1 l2 : ℝ × ℝ) :
    lineIntersectionN l1 l2 = (lineIntersection l1 l2 0, lineIntersection l1 l2 1) := by
  unfold lineIntersectionN lineIntersection
  ext <;> simp [invM, invN, Matrix.mulVec, dotProduct, Fin.sum_univ_two, PyNum.lit]

theorem centerOfMass_real (lines : List (ℝ × ℝ)) : centerOfMassN lines = centerOfMass lines := by
  unfold centerOfMassN centerOfMass
  cases indexPairs lines.length with
  | error e => rfl
  | ok comb =>
    simp only [PyNumT.val, PyNum.lit, id, List.length_eq_zero_iff]
    congr 1
    congr 1
    simp [sumN_real, intersection_real, Function.comp_def, List.map_map]

theorem comLine_real (alpha a lam rR rF w : ℝ) (part : String) (l1 l2 : ℝ) :
    comLineN alpha a lam rR rF w part l1 l2 = comLine alpha a lam rR rF w part l1 l2 := by
  unfold comLineN comLine
  rw [fwheel_real]
  cases fwheelToHandlebarRef lam l1 l2 <;> rfl

theorem comLineStep_real (par mp : Dict ℝ) (l1 l2 : ℝ) : comLineStepN par mp l1 l2 = comLineStep par mp l1 l2 := by
  funext acc key
  unfold comLineStepN comLineStep
  simp only [comLine_real]
  cases mp.require [key, "a" ++ String.ofList (key.toList.drop 5)] with
  | error e => rfl
  | ok _ =>
    cases key.toList[5]? with
    | none => rfl
    | some ch =>
      simp only [PyNum.lit, id]
      cases comLine (mp.getD key 0) (mp.getD ("a" ++ String.ofList (List.drop 5 key.toList)) 0) (par.getD "lam" 0)
        (par.getD "rR" 0) (par.getD "rF" 0) (par.getD "w" 0) (String.ofList [ch]) l1 l2 with
      | error e => rfl
      | ok t => cases acc.find? (String.ofList [ch]) <;> rfl

theorem partComLines_real (mp par : Dict ℝ) (s : Bool) (l1 l2 : ℝ) :
    partComLinesN mp par s l1 l2 = partComLines mp par s l1 l2 := by
  unfold partComLinesN partComLines
  rw [comLineStep_real]
  rfl

theorem setCentres_real (lines : Dict (List (ℝ × ℝ × ℝ))) (par : Dict ℝ) :
    setCentresN lines par = setCentres lines par := by
  unfold setCentresN setCentres
  congr 1
  funext par pl
  unfold centreStepN centreStep
  rw [centerOfMass_real]
  cases centerOfMass (List.map (fun t => (t.1, t.2.1)) pl.2) <;> rfl

theorem components_real {n : ℕ} (matInv : MatInv ℝ) (jay beta : Fin n → ℝ) :
    inertiaComponentsN matInv jay beta = inertiaComponents (matInv n) jay beta := by
  funext k
  unfold inertiaComponentsN inertiaComponents
  rw [sumN_real, Matrix.mulVec, dotProduct, ← List.sum_ofFn, List.ofFn_eq_map]
  rfl

theorem setInPlane_real (matInv : MatInv ℝ) (mp : Dict ℝ) (k : ℝ) (lines : Dict (List (ℝ × ℝ × ℝ)))
    (par : Dict ℝ) : setInPlaneN matInv mp k lines par = setInPlane matInv mp k lines par := by
  unfold setInPlaneN setInPlane
  congr 1

theorem setSplitCentre_real (par : Dict ℝ) : setSplitCentreN par = setSplitCentre par := rfl

theorem setMasses_real (mp : Dict ℝ) (s : Bool) (par : Dict ℝ) : setMassesN mp s par = setMasses mp s par := rfl

theorem setYInertias_real (mp : Dict ℝ) (s : Bool) (u1 u2 : ℝ) (par : Dict ℝ) :
    setYInertiasN mp s u1 u2 par = setYInertias mp s u1 u2 par := rfl

theorem torsion_real (mp : Dict ℝ) : torsionStiffnessN mp = torsionStiffness mp := rfl

theorem setWheel_real (mp : Dict ℝ) (k : ℝ) (par : Dict ℝ) :
    setWheelInertiasN mp k par = setWheelInertias mp k par := rfl

theorem setSplitInertia_real (par : Dict ℝ) : setSplitInertiaN par = setSplitInertia par := by
  unfold setSplitInertiaN setSplitInertia partInertiaTensor
  simp only [show ¬ (("G" : String) ∈ ["F", "R", "D", "FR", "RD", "FRD", ""]) by decide,
    show ¬ (("S" : String) ∈ ["F", "R", "D", "FR", "RD", "FRD", ""]) by decide, if_false]
  simp only [show ("I" ++ "G" ++ "xx" : String) = "IGxx" by decide, show ("I" ++ "G" ++ "xz" : String) = "IGxz" by decide,
    show ("I" ++ "G" ++ "yy" : String) = "IGyy" by decide, show ("I" ++ "G" ++ "zz" : String) = "IGzz" by decide,
    show ("I" ++ "S" ++ "xx" : String) = "ISxx" by decide, show ("I" ++ "S" ++ "xz" : String) = "ISxz" by decide,
    show ("I" ++ "S" ++ "yy" : String) = "ISyy" by decide, show ("I" ++ "S" ++ "zz" : String) = "ISzz" by decide]
  cases par.require ["IBxx", "IGxx", "IGxz", "IGyy", "IGzz"] with
  | error e => rfl
  | ok _ =>
    cases par.require ["IBxx", "ISxx", "ISxz", "ISyy", "ISzz"] with
    | error e => rfl
    | ok _ =>
      simp [parallelAxis, totalCom, totalComN, PyNum.lit]

theorem splitLengths_real (mp : Dict ℝ) (s : Bool) : splitLengthsN mp s = splitLengths mp s := by
  unfold splitLengthsN splitLengths
  simp only [calculateL1L2_real]
  rfl

theorem splitRef_real (par : Dict ℝ) (s : Bool) (l1 l2 : ℝ) :
    splitRefN par s l1 l2 = splitRef par s l1 l2 := by
  unfold splitRefN splitRef
  simp only [fwheel_real]
  rfl

theorem calculateBenchmark_eq (newton : (ℝ → ℝ) → ℝ → Except PyErr ℝ) (matInv : MatInv ℝ) (mp : Dict ℝ) :
    calculateBenchmark newton matInv mp =
      (calculateBenchmarkGeometry newton mp []).bind (benchmarkAfterGeometry matInv mp) := by
  unfold calculateBenchmark benchmarkAfterGeometry
  simp only [setMasses_real, splitLengths_real, partComLines_real, setCentres_real, setSplitCentre_real,
    splitRef_real, setYInertias_real, torsion_real, setWheel_real, setInPlane_real, setSplitInertia_real]
  rfl

/-! ## Nominal values -/

variable {ι : Type}

/-- The nominal values of slope, intercept and angle. -/
def Spec.nominalTriple (t : UNum ι × UNum ι × UNum ι) : ℝ × ℝ × ℝ := (t.1.nom, t.2.1.nom, t.2.2.nom)

/-- The nominal values of slopes, intercepts and angles. -/
def Spec.nominalLines (l : Dict (List (UNum ι × UNum ι × UNum ι))) : Dict (List (ℝ × ℝ × ℝ)) :=
  l.map fun e => (e.1, e.2.map nominalTriple)

theorem sumN_nom (l : List (UNum ι)) : sumN (l.map UNum.nom) = (sumN l).nom := by
  induction l with
  | nil => rfl
  | cons a l ih =>
    show a.nom + sumN (l.map UNum.nom) = a.nom + (sumN l).nom
    rw [ih]

theorem calculateL1L2_nom (h6 h7 d5 d6 l : UNum ι) :
    calculateL1L2N h6.nom h7.nom d5.nom d6.nom l.nom =
      (calculateL1L2N h6 h7 d5 d6 l).map fun t => (t.1.nom, t.2.nom) := by
  unfold calculateL1L2N
  dsimp only
  rw [show PyNumT.val (l.nom - d5.nom / PyNum.lit 2 - d6.nom / PyNum.lit 2) =
    PyNumT.val (l - d5 / PyNum.lit 2 - d6 / PyNum.lit 2) from rfl,
    show PyNumT.val ((h7.nom - h6.nom + d5.nom / PyNum.lit 2 - d6.nom / PyNum.lit 2) /
      (l.nom - d5.nom / PyNum.lit 2 - d6.nom / PyNum.lit 2)) =
    PyNumT.val ((h7 - h6 + d5 / PyNum.lit 2 - d6 / PyNum.lit 2) /
      (l - d5 / PyNum.lit 2 - d6 / PyNum.lit 2)) from rfl]
  split_ifs <;> rfl

theorem fwheel_nom (lam l1 l2 : UNum ι) : fwheelToHandlebarRefN lam.nom l1.nom l2.nom =
    (fwheelToHandlebarRefN lam l1 l2).map fun t => (t.1.nom, t.2.nom) := by
  unfold fwheelToHandlebarRefN
  dsimp only
  rw [show PyNumT.val (PyNum.sin lam.nom) = PyNumT.val (PyNum.sin lam) from rfl]
  split_ifs <;> rfl

theorem centerOfMass_nom (lines : List (UNum ι × UNum ι)) :
    centerOfMassN (lines.map fun l => (l.1.nom, l.2.nom)) =
      (centerOfMassN lines).map fun t => (t.1.nom, t.2.nom) := by
  unfold centerOfMassN
  rw [List.length_map]
  cases indexPairs lines.length with
  | error e => rfl
  | ok comb =>
    dsimp only
    set pr := comb.map fun row => (lines.getD (row.getD 0 0) ((PyNum.lit 0 : UNum ι), PyNum.lit 0),
      lines.getD (row.getD 1 0) (PyNum.lit 0, PyNum.lit 0)) with hpr
    have hg : ∀ n, (lines.map fun l => (l.1.nom, l.2.nom)).getD n ((PyNum.lit 0 : ℝ), PyNum.lit 0) =
        ((lines.getD n (PyNum.lit 0, PyNum.lit 0)).1.nom, (lines.getD n (PyNum.lit 0, PyNum.lit 0)).2.nom) := by
      intro n
      rw [List.getD_eq_getElem?_getD, List.getD_eq_getElem?_getD, List.getElem?_map]
      cases lines[n]? <;> rfl
    have hp : (comb.map fun row => ((lines.map fun l => (l.1.nom, l.2.nom)).getD (row.getD 0 0)
        ((PyNum.lit 0 : ℝ), PyNum.lit 0), (lines.map fun l => (l.1.nom, l.2.nom)).getD (row.getD 1 0)
        (PyNum.lit 0, PyNum.lit 0))) = pr.map fun q => ((q.1.1.nom, q.1.2.nom), (q.2.1.nom, q.2.2.nom)) := by
      rw [hpr, List.map_map]
      exact List.map_congr_left fun row _ => by simp only [hg, Function.comp_def]
    rw [hp, List.length_map, List.length_map, List.length_map]
    have hc : (∃ q ∈ pr.map fun q => ((q.1.1.nom, q.1.2.nom), (q.2.1.nom, q.2.2.nom)),
        PyNumT.val q.1.1 = PyNumT.val q.2.1) ↔ ∃ q ∈ pr, PyNumT.val q.1.1 = PyNumT.val q.2.1 := by
      constructor
      · rintro ⟨q, hq, h⟩
        obtain ⟨q', hq', rfl⟩ := List.mem_map.1 hq
        exact ⟨q', hq', h⟩
      · rintro ⟨q, hq, h⟩
        exact ⟨_, List.mem_map.2 ⟨q, hq, rfl⟩, h⟩
    simp only [hc]
    split_ifs
    · rfl
    · rfl
    · refine congrArg Except.ok (Prod.ext ?_ ?_)
      · show sumN _ / _ = UNum.nom (sumN _) / _
        rw [← sumN_nom]
        simp only [List.map_map, Function.comp_def, List.length_map]
        rfl
      · show sumN _ / _ = UNum.nom (sumN _) / _
        rw [← sumN_nom]
        simp only [List.map_map, Function.comp_def, List.length_map]
        rfl

theorem comLine_nom (alpha a lam rR rF w : UNum ι) (part : String) (l1 l2 : UNum ι) :
    comLineN alpha.nom a.nom lam.nom rR.nom rF.nom w.nom part l1.nom l2.nom =
      (comLineN alpha a lam rR rF w part l1 l2).map nominalTriple := by
  unfold comLineN
  rw [fwheel_nom]
  dsimp only
  split_ifs
  · rfl
  · rfl
  · cases fwheelToHandlebarRefN lam l1 l2 <;> rfl
  · rfl

theorem find?_nominalLines (l : Dict (List (UNum ι × UNum ι × UNum ι))) (k : String) :
    (nominalLines l).find? k = (l.find? k).map (List.map nominalTriple) :=
  find?_map_key (fun _ => List.map nominalTriple) l k

theorem set_nominalLines (l : Dict (List (UNum ι × UNum ι × UNum ι))) (k : String)
    (x : List (UNum ι × UNum ι × UNum ι)) :
    (nominalLines l).set k (x.map nominalTriple) = nominalLines (l.set k x) := by
  induction l with
  | nil => rfl
  | cons e l ih =>
    by_cases h : e.1 = k
    · simp [nominalLines, Dict.set, h]
    · simp only [nominalLines, Dict.set, List.map_cons, h] at ih ⊢
      simpa using ih

theorem comLineStep_nom (par mp : Dict (UNum ι)) (l1 l2 : UNum ι) (acc : Dict (List (UNum ι × UNum ι × UNum ι)))
    (key : String) :
    comLineStepN (nominalDict par) (nominalDict mp) l1.nom l2.nom (nominalLines acc) key =
      (comLineStepN par mp l1 l2 acc key).map nominalLines := by
  unfold comLineStepN
  dsimp only
  rw [require_nominalDict]
  cases mp.require [key, "a" ++ String.ofList (key.toList.drop 5)] with
  | error e => rfl
  | ok _ =>
    cases key.toList[5]? with
    | none => rfl
    | some ch =>
      dsimp only
      rw [show (PyNum.lit 0 : ℝ) = 0 from rfl]
      simp only [getD_nominalDict, comLine_nom, find?_nominalLines]
      cases comLineN (mp.getD key (PyNum.lit 0)) (mp.getD ("a" ++ String.ofList (List.drop 5 key.toList)) (PyNum.lit 0))
          (par.getD "lam" (PyNum.lit 0)) (par.getD "rR" (PyNum.lit 0)) (par.getD "rF" (PyNum.lit 0))
          (par.getD "w" (PyNum.lit 0)) (String.ofList [ch]) l1 l2 with
      | error e => rfl
      | ok t =>
        cases acc.find? (String.ofList [ch]) with
        | none => rfl
        | some l =>
          show Except.ok ((nominalLines acc).set _ (l.map nominalTriple ++ [nominalTriple t])) = Except.ok _
          rw [← set_nominalLines, List.map_append]
          rfl

theorem foldlM_nom {α σ τ : Type} (φ : σ → τ) (f : σ → α → Except PyErr σ) (g : τ → α → Except PyErr τ)
    (h : ∀ s a, g (φ s) a = (f s a).map φ) (l : List α) (s : σ) :
    l.foldlM g (φ s) = (l.foldlM f s).map φ := by
  induction l generalizing s with
  | nil => rfl
  | cons a l ih =>
    rw [List.foldlM_cons, List.foldlM_cons, h]
    cases f s a with
    | error e => rfl
    | ok s' => exact ih s'

theorem keys_nominalDict (p : Dict (UNum ι)) : (nominalDict p).keys = p.keys := by
  simp [Dict.keys, nominalDict]

theorem partComLines_nom (mp par : Dict (UNum ι)) (s : Bool) (l1 l2 : UNum ι) :
    partComLinesN (nominalDict mp) (nominalDict par) s l1.nom l2.nom =
      (partComLinesN mp par s l1 l2).map nominalLines := by
  unfold partComLinesN
  have : alphaKeysN (nominalDict mp) = alphaKeysN mp := by unfold alphaKeysN; rw [keys_nominalDict]
  rw [this, ← foldlM_nom nominalLines _ _ (comLineStep_nom par mp l1 l2)]
  congr 1
  simp [nominalLines, Function.comp_def]

theorem foldlM_nom_map {α β σ τ : Type} (φ : σ → τ) (ψ : α → β) (f : σ → α → Except PyErr σ)
    (g : τ → β → Except PyErr τ) (h : ∀ s a, g (φ s) (ψ a) = (f s a).map φ) (l : List α) (s : σ) :
    (l.map ψ).foldlM g (φ s) = (l.foldlM f s).map φ := by
  rw [List.foldlM_map]
  exact foldlM_nom φ f _ h l s

theorem setCentres_nom (lines : Dict (List (UNum ι × UNum ι × UNum ι))) (par : Dict (UNum ι)) :
    setCentresN (nominalLines lines) (nominalDict par) = (setCentresN lines par).map nominalDict := by
  unfold setCentresN nominalLines
  refine foldlM_nom_map nominalDict _ _ _ (fun p pl => ?_) lines par
  unfold centreStepN
  have := centerOfMass_nom (pl.2.map fun t => (t.1, t.2.1))
  rw [List.map_map] at this
  dsimp only
  rw [List.map_map]
  rw [show ((fun t : ℝ × ℝ × ℝ => (t.1, t.2.1)) ∘ nominalTriple : UNum ι × UNum ι × UNum ι → ℝ × ℝ) =
    (fun l => (l.1.nom, l.2.nom)) ∘ fun t => (t.1, t.2.1) from rfl, this]
  cases centerOfMassN (pl.2.map fun t => (t.1, t.2.1)) with
  | error e => rfl
  | ok t =>
    show Except.ok (((nominalDict p).set _ t.1.nom).set _ t.2.nom) = Except.ok _
    rw [set_nominalDict, set_nominalDict]

theorem setMasses_nom (mp : Dict (UNum ι)) (s : Bool) (par : Dict (UNum ι)) :
    setMassesN (nominalDict mp) s (nominalDict par) = (setMassesN mp s par).map nominalDict := by
  unfold setMassesN
  rw [require_nominalDict]
  cases mp.require (["mB", "mF", "mR"] ++ (if s then ["mS", "mG"] else ["mH"])) with
  | error e => rfl
  | ok _ =>
    simp only [show (PyNum.lit 0 : ℝ) = 0 from rfl, getD_nominalDict, has_nominalDict]
    cases mp.has "mD" <;> cases s <;>
      simp only [Except.map, set_nominalDict, if_true, if_false, Bool.false_eq_true] <;> rfl

theorem splitLengths_nom (mp : Dict (UNum ι)) (s : Bool) :
    splitLengthsN (nominalDict mp) s = (splitLengthsN mp s).map fun t => (t.1.nom, t.2.nom) := by
  unfold splitLengthsN
  cases s with
  | false => rfl
  | true =>
    simp only [require_nominalDict, if_true]
    cases mp.require ["h6", "h7", "d5", "d6", "l"] with
    | error e => rfl
    | ok _ =>
      simp only [show (PyNum.lit 0 : ℝ) = 0 from rfl, getD_nominalDict]
      exact calculateL1L2_nom _ _ _ _ _

theorem setSplitCentre_nom (par : Dict (UNum ι)) :
    setSplitCentreN (nominalDict par) = nominalDict (setSplitCentreN par) := by
  unfold setSplitCentreN
  simp only [show (PyNum.lit 0 : ℝ) = 0 from rfl, getD_nominalDict, set_nominalDict]
  rfl

theorem splitRef_nom (par : Dict (UNum ι)) (s : Bool) (l1 l2 : UNum ι) :
    splitRefN (nominalDict par) s l1.nom l2.nom = (splitRefN par s l1 l2).map fun t => (t.1.nom, t.2.nom) := by
  unfold splitRefN
  cases s with
  | false => rfl
  | true =>
    simp only [show (PyNum.lit 0 : ℝ) = 0 from rfl, getD_nominalDict, if_true]
    exact fwheel_nom _ _ _

theorem setYInertias_nom (mp : Dict (UNum ι)) (s : Bool) (u1 u2 : UNum ι) (par : Dict (UNum ι)) :
    setYInertiasN (nominalDict mp) s u1.nom u2.nom (nominalDict par) =
      (setYInertiasN mp s u1 u2 par).map nominalDict := by
  unfold setYInertiasN
  rw [require_nominalDict]
  cases mp.require (["g", "mF", "lF", "TcF1", "mR", "lR", "TcR1", "mB", "TcB1"] ++
      (if s then ["mS", "TcS1", "mG", "TcG1"] else ["mH", "TcH1"])) with
  | error e => rfl
  | ok _ =>
    simp only [show (PyNum.lit 0 : ℝ) = 0 from rfl, getD_nominalDict, has_nominalDict]
    cases mp.has "mD" && mp.has "TcD1" <;> cases s <;>
      simp only [Except.map, set_nominalDict, if_true, if_false, Bool.false_eq_true] <;> rfl

theorem torsion_nom (mp : Dict (UNum ι)) :
    torsionStiffnessN (nominalDict mp) = (torsionStiffnessN mp).map UNum.nom := by
  unfold torsionStiffnessN
  rw [require_nominalDict]
  cases mp.require ["lP", "mP", "dP", "TtP1"] with
  | error e => rfl
  | ok _ =>
    simp only [show (PyNum.lit 0 : ℝ) = 0 from rfl, getD_nominalDict]
    rfl

theorem setWheel_nom (mp : Dict (UNum ι)) (k : UNum ι) (par : Dict (UNum ι)) :
    setWheelInertiasN (nominalDict mp) k.nom (nominalDict par) =
      (setWheelInertiasN mp k par).map nominalDict := by
  unfold setWheelInertiasN
  rw [require_nominalDict]
  cases mp.require ["TtF1", "TtR1"] with
  | error e => rfl
  | ok _ =>
    simp only [show (PyNum.lit 0 : ℝ) = 0 from rfl, getD_nominalDict, has_nominalDict]
    cases mp.has "TtD1" <;>
      simp only [Except.map, set_nominalDict, if_true, if_false, Bool.false_eq_true] <;> rfl

theorem setSplitInertia_nom (par : Dict (UNum ι)) :
    setSplitInertiaN (nominalDict par) = (setSplitInertiaN par).map nominalDict := by
  unfold setSplitInertiaN
  rw [require_nominalDict, require_nominalDict]
  cases par.require ["IBxx", "IGxx", "IGxz", "IGyy", "IGzz"] with
  | error e => rfl
  | ok _ =>
    cases par.require ["IBxx", "ISxx", "ISxz", "ISyy", "ISzz"] with
    | error e => rfl
    | ok _ =>
      simp only [show (PyNum.lit 0 : ℝ) = 0 from rfl, getD_nominalDict, Except.map, set_nominalDict]
      rfl

/-- The pseudo-inverse with uncertainties has the pseudo-inverse of the nominal values as nominal
value. -/
def Spec.NominalInv (matInv : MatInv ℝ) (matInvU : MatInv (UNum ι)) : Prop :=
  ∀ n B, matInv n (nominalValues B) = nominalValues (matInvU n B)

theorem setInPlane_nom {matInv : MatInv ℝ} {matInvU : MatInv (UNum ι)} (hI : NominalInv matInv matInvU)
    (mp : Dict (UNum ι)) (k : UNum ι) (lines : Dict (List (UNum ι × UNum ι × UNum ι))) (par : Dict (UNum ι)) :
    setInPlaneN matInv (nominalDict mp) k.nom (nominalLines lines) (nominalDict par) =
      (setInPlaneN matInvU mp k lines par).map nominalDict := by
  unfold setInPlaneN nominalLines
  refine foldlM_nom_map nominalDict _ _ _ (fun p pl => ?_) lines par
  obtain ⟨part, l⟩ := pl
  unfold inPlaneStepN
  dsimp only
  rw [require_nominalDict]
  have key : ∀ (l' : List (ℝ × ℝ × ℝ)) (hl : l' = l.map nominalTriple) (j : Fin 3),
      inertiaComponentsN matInv (fun i : Fin l'.length => torInertiaN k.nom
        ((nominalDict mp).getD (ttKey part i) (PyNum.lit 0))) (fun i => (l'[i]).2.2) j =
      (inertiaComponentsN matInvU (fun i : Fin l.length => torInertiaN k (mp.getD (ttKey part i) (PyNum.lit 0)))
        (fun i => (l[i]).2.2) j).nom := by
    intro l' hl j
    subst hl
    have hlen : (l.map nominalTriple).length = l.length := List.length_map _
    have : ∀ (n : ℕ) (hn : n = l.length) (b : Fin n → ℝ) (hb : ∀ i, b i = (l[(i : ℕ)]'(hn ▸ i.2)).2.2.nom),
        inertiaComponentsN matInv (fun i : Fin n => torInertiaN k.nom
          ((nominalDict mp).getD (ttKey part i) (PyNum.lit 0))) b j =
        (inertiaComponentsN matInvU (fun i : Fin l.length =>
          torInertiaN k (mp.getD (ttKey part i) (PyNum.lit 0))) (fun i => (l[i]).2.2) j).nom := by
      intro n hn b hb
      subst hn
      unfold inertiaComponentsN
      rw [← sumN_nom, List.map_map]
      have hB : betaMatN b = nominalValues (betaMatN fun i => (l[i]).2.2) := by
        funext i c
        unfold betaMatN nominalValues
        rw [hb i]
        fin_cases c <;> rfl
      rw [hB, hI]
      congr 1
      refine List.map_congr_left fun i _ => ?_
      simp only [show (PyNum.lit 0 : ℝ) = 0 from rfl, getD_nominalDict]
      rfl
    refine this _ hlen _ fun i => ?_
    simp only [Fin.getElem_fin, List.getElem_map]
    rfl
  have hr : mp.require ((List.range (l.map nominalTriple).length).map (ttKey part)) =
      mp.require ((List.range l.length).map (ttKey part)) := by rw [List.length_map]
  rw [hr]
  cases mp.require ((List.range l.length).map (ttKey part)) with
  | error e => rfl
  | ok _ =>
    dsimp only
    rw [key _ rfl, key _ rfl, key _ rfl]
    simp only [Except.map, set_nominalDict]

theorem okBind {α β : Type} (a : α) (f : α → Except PyErr β) : (Except.ok a >>= f) = f a := rfl

theorem okMap {α β : Type} (a : α) (f : α → β) : (Except.ok a : Except PyErr α).map f = .ok (f a) := rfl

theorem benchmarkAfterGeometry_nom {matInv : MatInv ℝ} {matInvU : MatInv (UNum ι)}
    (hI : NominalInv matInv matInvU) (mp par : Dict (UNum ι)) :
    benchmarkAfterGeometry matInv (nominalDict mp) (nominalDict par) =
      (benchmarkAfterGeometry matInvU mp par).map fun r => (nominalDict r.1, nominalLines r.2) := by
  have hs : isForkSplit (nominalDict mp) = isForkSplit mp := by
    unfold isForkSplit; rw [keys_nominalDict]
  unfold benchmarkAfterGeometry
  rw [hs]
  dsimp only
  rw [setMasses_nom]
  cases setMassesN mp (isForkSplit mp) par with
  | error e => rfl
  | ok p1 =>
    simp only [okMap, okBind]
    rw [splitLengths_nom]
    cases splitLengthsN mp (isForkSplit mp) with
    | error e => rfl
    | ok l =>
      simp only [okMap, okBind]
      rw [partComLines_nom]
      cases partComLinesN mp p1 (isForkSplit mp) l.1 l.2 with
      | error e => rfl
      | ok lines =>
        simp only [okMap, okBind]
        rw [setCentres_nom]
        cases setCentresN lines p1 with
        | error e => rfl
        | ok p2 =>
          simp only [okMap, okBind]
          have h3 : (if isForkSplit mp = true then setSplitCentreN (nominalDict p2) else nominalDict p2) =
              nominalDict (if isForkSplit mp = true then setSplitCentreN p2 else p2) := by
            split_ifs
            · exact setSplitCentre_nom p2
            · rfl
          rw [h3, splitRef_nom]
          generalize (if isForkSplit mp = true then setSplitCentreN p2 else p2) = p3
          cases splitRefN p3 (isForkSplit mp) l.1 l.2 with
          | error e => rfl
          | ok u =>
            simp only [okMap, okBind]
            rw [setYInertias_nom]
            cases setYInertiasN mp (isForkSplit mp) u.1 u.2 p3 with
            | error e => rfl
            | ok p4 =>
              simp only [okMap, okBind]
              rw [torsion_nom]
              cases torsionStiffnessN mp with
              | error e => rfl
              | ok k =>
                simp only [okMap, okBind]
                rw [setWheel_nom]
                cases setWheelInertiasN mp k p4 with
                | error e => rfl
                | ok p5 =>
                  simp only [okMap, okBind]
                  rw [setInPlane_nom hI]
                  cases setInPlaneN matInvU mp k lines p5 with
                  | error e => rfl
                  | ok p6 =>
                    simp only [okMap, okBind]
                    cases isForkSplit mp with
                    | false => rfl
                    | true =>
                      simp only [if_true]
                      rw [setSplitInertia_nom]
                      cases setSplitInertiaN p6 <;> rfl

end BP
