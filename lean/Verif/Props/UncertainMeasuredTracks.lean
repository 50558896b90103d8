import Mathlib.Analysis.SpecialFunctions.Trigonometric.ArctanDeriv
import Mathlib.Analysis.SpecialFunctions.Trigonometric.InverseDeriv
import Verif.Props.UncertainMeasured
import Verif.Props.Measured

/-!
# First-order propagation through the steps of calculate_benchmark_from_measured
-/

set_option linter.unusedSimpArgs false

namespace BP

open Matrix Spec

variable {ι : Type} [DecidableEq ι]

/-- `P` holds at the nominal values and for all small deviations of any one variable. -/
def Spec.Near (P : (ι → ℝ) → Prop) : Prop := P 0 ∧ ∀ i, ∀ᶠ t in nhds (0 : ℝ), P (Pi.single i t)

namespace Spec.Near

theorem of_forall {P : (ι → ℝ) → Prop} (h : ∀ z, P z) : Near P :=
  ⟨h 0, fun _ => Filter.Eventually.of_forall fun _ => h _⟩

theorem mono {P Q : (ι → ℝ) → Prop} (hP : Near P) (h : ∀ z, P z → Q z) : Near Q :=
  ⟨h 0 hP.1, fun i => (hP.2 i).mono fun _ ht => h _ ht⟩

theorem and {P Q : (ι → ℝ) → Prop} (hP : Near P) (hQ : Near Q) : Near fun z => P z ∧ Q z :=
  ⟨⟨hP.1, hQ.1⟩, fun i => (hP.2 i).and (hQ.2 i)⟩

theorem ne_zero {f : (ι → ℝ) → ℝ} {u : UNum ι} (h : Tracks f u) (hu : u.nom ≠ 0) : Near fun z => f z ≠ 0 :=
  ⟨by show f 0 ≠ 0; rw [h.1]; exact hu, fun i => (h.2 i).continuousAt.eventually_ne
    (by rw [Tracks.at_zero h]; exact hu)⟩

theorem ne {f g : (ι → ℝ) → ℝ} {u v : UNum ι} (hf : Tracks f u) (hg : Tracks g v) (huv : u.nom ≠ v.nom) :
    Near fun z => f z ≠ g z :=
  Near.mono (ne_zero (hf.sub hg) (sub_ne_zero.2 huv)) fun _ h => sub_ne_zero.1 h

theorem lt_const {f : (ι → ℝ) → ℝ} {u : UNum ι} (h : Tracks f u) {a : ℝ} (hu : u.nom < a) :
    Near fun z => f z < a :=
  ⟨by show f 0 < a; rw [h.1]; exact hu, fun i => (h.2 i).continuousAt.eventually_lt_const
    (by dsimp only; rw [Tracks.at_zero h]; exact hu)⟩

theorem const_lt {f : (ι → ℝ) → ℝ} {u : UNum ι} (h : Tracks f u) {a : ℝ} (hu : a < u.nom) :
    Near fun z => a < f z :=
  ⟨by show a < f 0; rw [h.1]; exact hu, fun i => (h.2 i).continuousAt.eventually_const_lt
    (by dsimp only; rw [Tracks.at_zero h]; exact hu)⟩

end Spec.Near

namespace Spec.Tracks

variable {f g : (ι → ℝ) → ℝ} {u v : UNum ι}

theorem tan (hf : Tracks f u) (hu : Real.cos u.nom ≠ 0) :
    Tracks (fun z => Real.tan (f z)) (PyNumT.tan u) :=
  chain hf (h := Real.tan) rfl (Real.hasDerivAt_tan hu)

theorem asin (hf : Tracks f u) (h1 : u.nom ≠ -1) (h2 : u.nom ≠ 1) :
    Tracks (fun z => Real.arcsin (f z)) (PyNumT.asin u) :=
  chain hf (h := Real.arcsin) rfl (Real.hasDerivAt_arcsin h1 h2)

end Spec.Tracks

/-! ## Dictionaries of quantities -/

/-- A dictionary of quantities at one deviation. -/
def evalD (D : Dict ((ι → ℝ) → ℝ)) (z : ι → ℝ) : Dict ℝ := D.map fun e => (e.1, e.2 z)

/-- Key by key, to first order. -/
def TracksD (D : Dict ((ι → ℝ) → ℝ)) (d : Dict (UNum ι)) : Prop :=
  List.Forall₂ (fun a b => a.1 = b.1 ∧ Tracks a.2 b.2) D d

omit [DecidableEq ι] in
theorem find?_evalD (D : Dict ((ι → ℝ) → ℝ)) (z : ι → ℝ) (k : String) :
    (evalD D z).find? k = (D.find? k).map fun f => f z :=
  find?_map_key (fun (_ : String) (f : (ι → ℝ) → ℝ) => f z) D k

omit [DecidableEq ι] in
theorem evalD_set (D : Dict ((ι → ℝ) → ℝ)) (k : String) (f : (ι → ℝ) → ℝ) (z : ι → ℝ) :
    evalD (D.set k f) z = (evalD D z).set k (f z) := by
  induction D with
  | nil => rfl
  | cons e D ih =>
    obtain ⟨k', v⟩ := e
    simp only [evalD, Dict.set, List.map_cons] at ih ⊢
    split
    · simp
    · simp [ih]

namespace TracksD

variable {D : Dict ((ι → ℝ) → ℝ)} {d : Dict (UNum ι)}

theorem keys (h : TracksD D d) (z : ι → ℝ) : (evalD D z).keys = d.keys := by
  induction h with
  | nil => rfl
  | cons h _ ih =>
    simp only [Dict.keys, evalD, List.map_cons] at ih ⊢
    rw [h.1, ih]

theorem find (h : TracksD D d) (k : String) :
    (D.find? k = none ∧ d.find? k = none) ∨ ∃ f u, D.find? k = some f ∧ d.find? k = some u ∧ Tracks f u := by
  induction h with
  | nil => exact Or.inl ⟨rfl, rfl⟩
  | @cons a b D d h _ ih =>
    obtain ⟨k1, f⟩ := a
    obtain ⟨k2, u⟩ := b
    obtain ⟨rfl, hT⟩ := h
    simp only [Dict.find?_cons]
    split
    · exact Or.inr ⟨f, u, rfl, rfl, hT⟩
    · exact ih

theorem getD (h : TracksD D d) (k : String) :
    Tracks (fun z => (evalD D z).getD k (PyNum.lit 0)) (d.getD k (PyNum.lit 0)) := by
  simp only [Dict.getD, find?_evalD]
  rcases h.find k with ⟨h1, h2⟩ | ⟨f, u, h1, h2, hT⟩
  · rw [h1, h2]; exact Tracks.lit 0
  · rw [h1, h2]; exact hT

theorem has (h : TracksD D d) (k : String) (z : ι → ℝ) : (evalD D z).has k = d.has k := by
  simp only [Dict.has, find?_evalD]
  rcases h.find k with ⟨h1, h2⟩ | ⟨f, u, h1, h2, hT⟩ <;> rw [h1, h2] <;> rfl

theorem require (h : TracksD D d) (ks : List String) (z : ι → ℝ) : (evalD D z).require ks = d.require ks := by
  induction ks with
  | nil => rfl
  | cons k ks ih =>
    simp only [Dict.require, find?_evalD, ih]
    rcases h.find k with ⟨h1, h2⟩ | ⟨f, u, h1, h2, hT⟩ <;> rw [h1, h2] <;> rfl

theorem set (h : TracksD D d) (k : String) {f : (ι → ℝ) → ℝ} {u : UNum ι} (hf : Tracks f u) :
    TracksD (D.set k f) (d.set k u) := by
  induction h with
  | nil => exact List.Forall₂.cons ⟨rfl, hf⟩ List.Forall₂.nil
  | @cons a b D d h hs ih =>
    obtain ⟨k1, f1⟩ := a
    obtain ⟨k2, u2⟩ := b
    obtain ⟨rfl, hT⟩ := h
    simp only [Dict.set]
    split
    · exact List.Forall₂.cons ⟨rfl, hf⟩ hs
    · exact List.Forall₂.cons ⟨rfl, hT⟩ ih

end TracksD

/-! ## The steps that contain no comparison -/

/-- The result of a step on the quantities is represented by the result of the step with
uncertainties. -/
def StepTracks (step : (ι → ℝ) → Except PyErr (Dict ℝ)) (d : Dict (UNum ι)) : Prop :=
  ∃ D, TracksD D d ∧ Near fun z => step z = .ok (evalD D z)

theorem setMasses_tracks {M D : Dict ((ι → ℝ) → ℝ)} {mp par : Dict (UNum ι)} (hM : TracksD M mp)
    (hD : TracksD D par) {s : Bool} {out : Dict (UNum ι)} (h : setMassesN mp s par = .ok out) :
    StepTracks (fun z => setMassesN (evalD M z) s (evalD D z)) out := by
  unfold setMassesN at h
  cases hr : mp.require (["mB", "mF", "mR"] ++ (if s then ["mS", "mG"] else ["mH"])) with
  | error e => simp only [hr] at h; cases h
  | ok _ =>
    simp only [hr, Except.ok.injEq] at h
    subst h
    have base := (((hD.set "mB" (hM.getD "mB")).set "mF" (hM.getD "mF")).set "mR" (hM.getD "mR"))
    unfold setMassesN
    simp only [hM.require, hr, hM.has]
    cases mp.has "mD" <;> cases s <;> simp only [if_true, if_false, Bool.false_eq_true]
    · exact ⟨_, base.set "mH" (hM.getD "mH"), Near.of_forall fun z => by simp only [evalD_set]⟩
    · exact ⟨_, (base.set "mS" (hM.getD "mS")).set "mG" (hM.getD "mG"),
        Near.of_forall fun z => by simp only [evalD_set]⟩
    · exact ⟨_, (base.set "mD" ((hM.getD "mD").sub (hM.getD "mF"))).set "mH" (hM.getD "mH"),
        Near.of_forall fun z => by simp only [evalD_set]⟩
    · exact ⟨_, ((base.set "mD" ((hM.getD "mD").sub (hM.getD "mF"))).set "mS" (hM.getD "mS")).set "mG"
        (hM.getD "mG"), Near.of_forall fun z => by simp only [evalD_set]⟩

/-- Two bodies. -/
structure TracksBody (F : (ι → ℝ) → ℝ × ℝ × ℝ) (b : UNum ι × UNum ι × UNum ι) : Prop where
  m : Tracks (fun z => (F z).1) b.1
  x : Tracks (fun z => (F z).2.1) b.2.1
  z : Tracks (fun z => (F z).2.2) b.2.2

theorem totalCom_tracks {F1 F2 : (ι → ℝ) → ℝ × ℝ × ℝ} {b1 b2 : UNum ι × UNum ι × UNum ι}
    (h1 : TracksBody F1 b1) (h2 : TracksBody F2 b2) (hm : b1.1.nom + b2.1.nom ≠ 0) :
    TracksBody (fun z => totalComN (F1 z) (F2 z)) (totalComN b1 b2) := by
  have hT : Tracks (fun z => (totalComN (F1 z) (F2 z)).1) (totalComN b1 b2).1 :=
    h1.m.add (h2.m.add (Tracks.lit 0))
  have hn : (totalComN b1 b2).1.nom ≠ 0 := by
    show b1.1.nom + (b2.1.nom + 0) ≠ 0
    rw [add_zero]; exact hm
  exact ⟨hT, Tracks.div ((h1.m.mul h1.x).add ((h2.m.mul h2.x).add (Tracks.lit 0))) hT hn,
    Tracks.div ((h1.m.mul h1.z).add ((h2.m.mul h2.z).add (Tracks.lit 0))) hT hn⟩

theorem setSplitCentre_tracks {D : Dict ((ι → ℝ) → ℝ)} {par : Dict (UNum ι)} (hD : TracksD D par)
    (hm : (par.getD "mS" (PyNum.lit 0)).nom + (par.getD "mG" (PyNum.lit 0)).nom ≠ 0) :
    ∃ D', TracksD D' (setSplitCentreN par) ∧ ∀ z, setSplitCentreN (evalD D z) = evalD D' z := by
  have ht := totalCom_tracks (F1 := fun z => ((evalD D z).getD "mS" (PyNum.lit 0), (evalD D z).getD "xS" (PyNum.lit 0),
      (evalD D z).getD "zS" (PyNum.lit 0))) (F2 := fun z => ((evalD D z).getD "mG" (PyNum.lit 0),
      (evalD D z).getD "xG" (PyNum.lit 0), (evalD D z).getD "zG" (PyNum.lit 0)))
    (b1 := (par.getD "mS" (PyNum.lit 0), par.getD "xS" (PyNum.lit 0), par.getD "zS" (PyNum.lit 0)))
    (b2 := (par.getD "mG" (PyNum.lit 0), par.getD "xG" (PyNum.lit 0), par.getD "zG" (PyNum.lit 0)))
    ⟨hD.getD "mS", hD.getD "xS", hD.getD "zS"⟩ ⟨hD.getD "mG", hD.getD "xG", hD.getD "zG"⟩ hm
  exact ⟨_, ((hD.set "mH" ht.m).set "xH" ht.x).set "zH" ht.z, fun z => by
    simp only [evalD_set]; rfl⟩

theorem pendulum_tracks {fm fg fl fT : (ι → ℝ) → ℝ} {m g l T : UNum ι} (hm : Tracks fm m) (hg : Tracks fg g)
    (hl : Tracks fl l) (hT : Tracks fT T) :
    Tracks (fun z => compoundPendulumInertiaN (fm z) (fg z) (fl z) (fT z)) (compoundPendulumInertiaN m g l T) := by
  unfold compoundPendulumInertiaN
  exact ((((((hT.div (Tracks.lit 2) (by show (2 : ℝ) ≠ 0; norm_num)).div (Tracks.lit Real.pi)
    Real.pi_ne_zero).pow 2).mul hm).mul hg).mul hl).sub (hm.mul (hl.pow 2))

/-- The squared distance whose root is the length of a pendulum. -/
def sqDist (x z : UNum ι) : ℝ := x.nom ^ 2 + z.nom ^ 2

theorem distance_tracks {fx fz : (ι → ℝ) → ℝ} {x z : UNum ι} (hx : Tracks fx x) (hz : Tracks fz z)
    (h0 : sqDist x z ≠ 0) :
    Tracks (fun t => PyNum.sqrt (fx t ^ 2 + fz t ^ 2)) (PyNum.sqrt (x ^ 2 + z ^ 2)) :=
  ((hx.pow 2).add (hz.pow 2)).sqrt h0

theorem setYInertias_tracks {M D : Dict ((ι → ℝ) → ℝ)} {mp par : Dict (UNum ι)} (hM : TracksD M mp)
    (hD : TracksD D par) {s : Bool} {f1 f2 : (ι → ℝ) → ℝ} {u1 u2 : UNum ι} (h1 : Tracks f1 u1)
    (h2 : Tracks f2 u2) {out : Dict (UNum ι)} (h : setYInertiasN mp s u1 u2 par = .ok out)
    (q : String → UNum ι) (hq : q = fun k => par.getD k (PyNum.lit 0))
    (hB : sqDist (q "xB") (q "zB" + q "rR") ≠ 0)
    (hS : s = true → sqDist (q "xS" - q "w") (q "zS" + q "rF") ≠ 0 ∧
      sqDist (q "xG" - q "w" + u1) (q "zG" + q "rF" + u2) ≠ 0)
    (hH : s = false → sqDist (q "xH" - q "w") (q "zH" + q "rF") ≠ 0) :
    StepTracks (fun z => setYInertiasN (evalD M z) s (f1 z) (f2 z) (evalD D z)) out := by
  unfold setYInertiasN at h
  cases hr : mp.require (["g", "mF", "lF", "TcF1", "mR", "lR", "TcR1", "mB", "TcB1"] ++
      (if s then ["mS", "TcS1", "mG", "TcG1"] else ["mH", "TcH1"])) with
  | error e => simp only [hr] at h; cases h
  | ok _ =>
    simp only [hr] at h
    have hq' : ∀ k, Tracks (fun z => (evalD D z).getD k (PyNum.lit 0)) (q k) := fun k => by
      rw [hq]; exact hD.getD k
    have v := fun k => hM.getD k
    have iF := pendulum_tracks (v "mF") (v "g") (v "lF") (v "TcF1")
    have base := ((hD.set "g" (v "g")).set "IFyy" iF).set "IRyy" (pendulum_tracks (v "mR") (v "g") (v "lR") (v "TcR1"))
    have baseD := base.set "IDyy" ((pendulum_tracks (v "mD") (v "g") (v "lF") (v "TcD1")).sub iF)
    have iB := pendulum_tracks (v "mB") (v "g") (distance_tracks (hq' "xB") ((hq' "zB").add (hq' "rR")) hB) (v "TcB1")
    unfold setYInertiasN
    simp only [hM.require, hr, hM.has]
    cases hs : s
    · subst hs
      have iH := pendulum_tracks (v "mH") (v "g") (distance_tracks ((hq' "xH").sub (hq' "w"))
        ((hq' "zH").add (hq' "rF")) (hH rfl)) (v "TcH1")
      subst hq
      simp only [if_false, Bool.false_eq_true] at h ⊢
      cases hd : (mp.has "mD" && mp.has "TcD1")
      · simp only [hd, if_false, Bool.false_eq_true, Except.ok.injEq] at h ⊢
        subst h
        exact ⟨_, (base.set "IByy" iB).set "IHyy" iH, Near.of_forall fun z => by simp only [evalD_set]⟩
      · simp only [hd, if_true, Except.ok.injEq] at h ⊢
        subst h
        exact ⟨_, (baseD.set "IByy" iB).set "IHyy" iH, Near.of_forall fun z => by simp only [evalD_set]⟩
    · subst hs
      have iS := pendulum_tracks (v "mS") (v "g") (distance_tracks ((hq' "xS").sub (hq' "w"))
        ((hq' "zS").add (hq' "rF")) (hS rfl).1) (v "TcS1")
      have iG := pendulum_tracks (v "mG") (v "g") (distance_tracks (((hq' "xG").sub (hq' "w")).add h1)
        (((hq' "zG").add (hq' "rF")).add h2) (hS rfl).2) (v "TcG1")
      subst hq
      simp only [if_true] at h ⊢
      cases hd : (mp.has "mD" && mp.has "TcD1")
      · simp only [hd, if_false, Bool.false_eq_true, Except.ok.injEq] at h ⊢
        subst h
        exact ⟨_, ((base.set "IByy" iB).set "ISyy" iS).set "IGyy" iG,
          Near.of_forall fun z => by simp only [evalD_set]⟩
      · simp only [hd, if_true, Except.ok.injEq] at h ⊢
        subst h
        exact ⟨_, ((baseD.set "IByy" iB).set "ISyy" iS).set "IGyy" iG,
          Near.of_forall fun z => by simp only [evalD_set]⟩

theorem torsion_tracks {M : Dict ((ι → ℝ) → ℝ)} {mp : Dict (UNum ι)} (hM : TracksD M mp) {k : UNum ι}
    (h : torsionStiffnessN mp = .ok k) (hT : (mp.getD "TtP1" (PyNum.lit 0)).nom ≠ 0) :
    ∃ f, Tracks f k ∧ ∀ z, torsionStiffnessN (evalD M z) = .ok (f z) := by
  unfold torsionStiffnessN at h
  cases hr : mp.require ["lP", "mP", "dP", "TtP1"] with
  | error e => simp only [hr] at h; cases h
  | ok _ =>
    simp only [hr, Except.ok.injEq] at h
    subst h
    unfold torsionStiffnessN
    simp only [hM.require, hr]
    have v := fun k => hM.getD k
    have two : (PyNum.lit 2 : UNum ι).nom ≠ 0 := by show (2 : ℝ) ≠ 0; norm_num
    have twelve : (PyNum.lit 12 : UNum ι).nom ≠ 0 := by show (12 : ℝ) ≠ 0; norm_num
    have hI : Tracks (fun z => tubeInertiaN ((evalD M z).getD "lP" (PyNum.lit 0))
        ((evalD M z).getD "mP" (PyNum.lit 0)) ((evalD M z).getD "dP" (PyNum.lit 0) / PyNum.lit 2))
        (tubeInertiaN (mp.getD "lP" (PyNum.lit 0)) (mp.getD "mP" (PyNum.lit 0))
          (mp.getD "dP" (PyNum.lit 0) / PyNum.lit 2)) := by
      unfold tubeInertiaN
      exact ((v "mP").div (Tracks.lit 12) twelve).mul ((((Tracks.lit 3).mul
        (((v "dP").div (Tracks.lit 2) two).pow 2)).add (Tracks.lit _)).add ((v "lP").pow 2))
    refine ⟨_, ((((Tracks.lit 4).mul hI).mul (Tracks.lit (Real.pi ^ 2))).div ((v "TtP1").pow 2) ?_), fun z => rfl⟩
    exact pow_ne_zero 2 hT

theorem tor_tracks {fk fT : (ι → ℝ) → ℝ} {k T : UNum ι} (hk : Tracks fk k) (hT : Tracks fT T) :
    Tracks (fun z => torInertiaN (fk z) (fT z)) (torInertiaN k T) := by
  unfold torInertiaN
  refine ((hk.mul (hT.pow 2)).div (Tracks.lit 4) ?_).div (Tracks.lit (Real.pi ^ 2)) ?_
  · show (4 : ℝ) ≠ 0
    norm_num
  · show Real.pi ^ 2 ≠ 0
    exact pow_ne_zero 2 Real.pi_ne_zero

theorem setWheel_tracks {M D : Dict ((ι → ℝ) → ℝ)} {mp par : Dict (UNum ι)} (hM : TracksD M mp)
    (hD : TracksD D par) {fk : (ι → ℝ) → ℝ} {k : UNum ι} (hk : Tracks fk k) {out : Dict (UNum ι)}
    (h : setWheelInertiasN mp k par = .ok out) :
    StepTracks (fun z => setWheelInertiasN (evalD M z) (fk z) (evalD D z)) out := by
  unfold setWheelInertiasN at h
  cases hr : mp.require ["TtF1", "TtR1"] with
  | error e => simp only [hr] at h; cases h
  | ok _ =>
    simp only [hr] at h
    unfold setWheelInertiasN
    simp only [hM.require, hr, hM.has]
    have iF := tor_tracks hk (hM.getD "TtF1")
    have base := (hD.set "IFxx" iF).set "IRxx" (tor_tracks hk (hM.getD "TtR1"))
    cases hd : mp.has "TtD1"
    · simp only [hd, if_false, Bool.false_eq_true, Except.ok.injEq] at h ⊢
      subst h
      exact ⟨_, base, Near.of_forall fun z => by simp only [evalD_set]⟩
    · simp only [hd, if_true, Except.ok.injEq] at h ⊢
      subst h
      exact ⟨_, base.set "IDxx" ((tor_tracks hk (hM.getD "TtD1")).sub iF), Near.of_forall fun z => by
        simp only [evalD_set]⟩

theorem setSplitInertia_tracks {D : Dict ((ι → ℝ) → ℝ)} {par : Dict (UNum ι)} (hD : TracksD D par)
    {out : Dict (UNum ι)} (h : setSplitInertiaN par = .ok out)
    (hm : (par.getD "mG" (PyNum.lit 0)).nom + (par.getD "mS" (PyNum.lit 0)).nom ≠ 0) :
    StepTracks (fun z => setSplitInertiaN (evalD D z)) out := by
  unfold setSplitInertiaN at h
  cases hr : par.require ["IBxx", "IGxx", "IGxz", "IGyy", "IGzz"] with
  | error e => simp only [hr] at h; cases h
  | ok _ =>
    cases hr' : par.require ["IBxx", "ISxx", "ISxz", "ISyy", "ISzz"] with
    | error e => simp only [hr, hr'] at h; cases h
    | ok _ =>
      simp only [hr, hr', Except.ok.injEq] at h
      subst h
      unfold setSplitInertiaN
      simp only [hD.require, hr, hr']
      have q := fun k => hD.getD k
      have ht := totalCom_tracks (F1 := fun z => ((evalD D z).getD "mG" (PyNum.lit 0), (evalD D z).getD "xG" (PyNum.lit 0),
          (evalD D z).getD "zG" (PyNum.lit 0))) (F2 := fun z => ((evalD D z).getD "mS" (PyNum.lit 0),
          (evalD D z).getD "xS" (PyNum.lit 0), (evalD D z).getD "zS" (PyNum.lit 0)))
        (b1 := (par.getD "mG" (PyNum.lit 0), par.getD "xG" (PyNum.lit 0), par.getD "zG" (PyNum.lit 0)))
        (b2 := (par.getD "mS" (PyNum.lit 0), par.getD "xS" (PyNum.lit 0), par.getD "zS" (PyNum.lit 0)))
        ⟨q "mG", q "xG", q "zG"⟩ ⟨q "mS", q "xS", q "zS"⟩ hm
      have aG := (q "xG").sub ht.x
      have cG := (q "zG").sub ht.z
      have aS := (q "xS").sub ht.x
      have cS := (q "zS").sub ht.z
      have o : Tracks (fun _ : ι → ℝ => (PyNum.lit (0 ^ 2) : ℝ)) (PyNum.lit (0 ^ 2) : UNum ι) := Tracks.lit _
      have base := ((hD.set "mH" ht.m).set "xH" ht.x).set "zH" ht.z
      refine ⟨_, (((base.set "IHxx" (((q "IGxx").add ((q "mG").mul (o.add (cG.pow 2)))).add
          ((q "ISxx").add ((q "mS").mul (o.add (cS.pow 2)))))).set "IHxz"
          (((q "IGxz").add ((q "mG").mul (aG.neg.mul cG))).add ((q "ISxz").add ((q "mS").mul (aS.neg.mul cS))))).set
          "IHyy" (((q "IGyy").add ((q "mG").mul ((cG.pow 2).add (aG.pow 2)))).add
          ((q "ISyy").add ((q "mS").mul ((cS.pow 2).add (aS.pow 2)))))).set "IHzz"
          (((q "IGzz").add ((q "mG").mul ((aG.pow 2).add o))).add
          ((q "ISzz").add ((q "mS").mul ((aS.pow 2).add o)))), Near.of_forall fun z => ?_⟩
      simp only [evalD_set]

end BP
