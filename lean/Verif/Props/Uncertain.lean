import Verif.Model.Uncertain
import Verif.Props.Canonical
import Verif.Props.ParameterSets
import Mathlib.Analysis.SpecialFunctions.Trigonometric.Deriv
import Mathlib.Analysis.SpecialFunctions.Trigonometric.ArctanDeriv
import Mathlib.Analysis.SpecialFunctions.Sqrt
import Mathlib.Analysis.Calculus.Deriv.Inv
import Mathlib.Analysis.Calculus.Deriv.Pow

/-!
# C122: uncertainties of the canonical matrices and of the state space
-/

set_option linter.unusedSimpArgs false

namespace BP

open Matrix Spec

variable {ι : Type} [DecidableEq ι]

/-- The quantity `f`, a function of the deviations of the independent variables (in units of
their standard deviations), is represented by `u` to first order: nominal value and all partial
derivatives agree. -/
def Spec.Tracks (f : (ι → ℝ) → ℝ) (u : UNum ι) : Prop :=
  f 0 = u.nom ∧ ∀ i, HasDerivAt (fun t : ℝ => f (Pi.single i t)) (u.lin i) 0

namespace Spec.Tracks

theorem at_zero {f : (ι → ℝ) → ℝ} {u : UNum ι} (h : Tracks f u) (i : ι) :
    f (Pi.single i 0) = u.nom := by rw [Pi.single_zero]; exact h.1

theorem lit (x : ℝ) : Tracks (fun _ : ι → ℝ => x) (PyNum.lit x) :=
  ⟨rfl, fun _ => hasDerivAt_const _ _⟩

variable {f g : (ι → ℝ) → ℝ} {u v : UNum ι}

theorem add (hf : Tracks f u) (hg : Tracks g v) : Tracks (fun z => f z + g z) (u + v) :=
  ⟨congrArg₂ (· + ·) hf.1 hg.1, fun i => (hf.2 i).add (hg.2 i)⟩

theorem sub (hf : Tracks f u) (hg : Tracks g v) : Tracks (fun z => f z - g z) (u - v) :=
  ⟨congrArg₂ (· - ·) hf.1 hg.1, fun i => (hf.2 i).sub (hg.2 i)⟩

theorem neg (hf : Tracks f u) : Tracks (fun z => -f z) (-u) :=
  ⟨congrArg (- ·) hf.1, fun i => (hf.2 i).neg⟩

theorem mul (hf : Tracks f u) (hg : Tracks g v) : Tracks (fun z => f z * g z) (u * v) :=
  ⟨congrArg₂ (· * ·) hf.1 hg.1, fun i => ((hf.2 i).mul (hg.2 i)).congr_deriv (by
    rw [at_zero hf, at_zero hg]; rfl)⟩

theorem div (hf : Tracks f u) (hg : Tracks g v) (hv : v.nom ≠ 0) :
    Tracks (fun z => f z / g z) (u / v) :=
  ⟨congrArg₂ (· / ·) hf.1 hg.1, fun i => ((hf.2 i).div (hg.2 i) (by
    rw [at_zero hg]; exact hv)).congr_deriv (by rw [at_zero hf, at_zero hg]; rfl)⟩

theorem chain (hf : Tracks f u) {h : ℝ → ℝ} {y y' : ℝ} (hy : h u.nom = y)
    (hd : HasDerivAt h y' u.nom) : Tracks (fun z => h (f z)) (UNum.chain y y' u) :=
  ⟨by rw [← hy, ← hf.1]; rfl, fun i => by
    have : HasDerivAt h y' ((fun t : ℝ => f (Pi.single i t)) 0) := by
      dsimp only
      rw [at_zero hf]; exact hd
    exact this.comp 0 (hf.2 i)⟩

theorem pow (hf : Tracks f u) (n : ℕ) : Tracks (fun z => f z ^ n) (u ^ n) :=
  chain hf (h := fun x => x ^ n) rfl (hasDerivAt_pow n u.nom)

theorem sin (hf : Tracks f u) : Tracks (fun z => Real.sin (f z)) (PyNum.sin u) :=
  chain hf (h := Real.sin) rfl (Real.hasDerivAt_sin _)

theorem cos (hf : Tracks f u) : Tracks (fun z => Real.cos (f z)) (PyNum.cos u) :=
  chain hf (h := Real.cos) rfl (Real.hasDerivAt_cos _)

theorem sqrt (hf : Tracks f u) (hu : u.nom ≠ 0) : Tracks (fun z => √(f z)) (PyNum.sqrt u) :=
  chain hf (h := Real.sqrt) rfl (Real.hasDerivAt_sqrt hu)

theorem atan (hf : Tracks f u) : Tracks (fun z => Real.arctan (f z)) (PyNum.atan u) :=
  chain hf (h := Real.arctan) rfl (Real.hasDerivAt_arctan _)

end Spec.Tracks

/-! ## For real numbers the functions are those of Model/Bicycle -/

/-- The same values. -/
def BenchN.toBench (p : BenchN ℝ) : Bench :=
  ⟨p.w, p.c, p.lam, p.rR, p.mR, p.IRxx, p.IRyy, p.xB, p.zB, p.mB, p.IBxx, p.IBxz, p.IBzz, p.xH, p.zH,
    p.mH, p.IHxx, p.IHxz, p.IHzz, p.rF, p.mF, p.IFxx, p.IFyy⟩

theorem canonN_real (p : BenchN ℝ) : p.canon.M = p.toBench.canon.M ∧ p.canon.C1 = p.toBench.canon.C1 ∧
    p.canon.K0 = p.toBench.canon.K0 ∧ p.canon.K2 = p.toBench.canon.K2 := ⟨rfl, rfl, rfl, rfl⟩

theorem ofDictN_real (d : Dict ℝ) : (BenchN.ofDict d).toBench = Bench.ofDict d := rfl

/-! ## First order propagation through the canonical matrices -/

/-- All values are tracked. -/
structure TracksB (P : (ι → ℝ) → BenchN ℝ) (U : BenchN (UNum ι)) : Prop where
  w : Tracks (fun z => (P z).w) U.w
  c : Tracks (fun z => (P z).c) U.c
  lam : Tracks (fun z => (P z).lam) U.lam
  rR : Tracks (fun z => (P z).rR) U.rR
  mR : Tracks (fun z => (P z).mR) U.mR
  IRxx : Tracks (fun z => (P z).IRxx) U.IRxx
  IRyy : Tracks (fun z => (P z).IRyy) U.IRyy
  xB : Tracks (fun z => (P z).xB) U.xB
  zB : Tracks (fun z => (P z).zB) U.zB
  mB : Tracks (fun z => (P z).mB) U.mB
  IBxx : Tracks (fun z => (P z).IBxx) U.IBxx
  IBxz : Tracks (fun z => (P z).IBxz) U.IBxz
  IBzz : Tracks (fun z => (P z).IBzz) U.IBzz
  xH : Tracks (fun z => (P z).xH) U.xH
  zH : Tracks (fun z => (P z).zH) U.zH
  mH : Tracks (fun z => (P z).mH) U.mH
  IHxx : Tracks (fun z => (P z).IHxx) U.IHxx
  IHxz : Tracks (fun z => (P z).IHxz) U.IHxz
  IHzz : Tracks (fun z => (P z).IHzz) U.IHzz
  rF : Tracks (fun z => (P z).rF) U.rF
  mF : Tracks (fun z => (P z).mF) U.mF
  IFxx : Tracks (fun z => (P z).IFxx) U.IFxx
  IFyy : Tracks (fun z => (P z).IFyy) U.IFyy

section
variable {P : (ι → ℝ) → BenchN ℝ} {U : BenchN (UNum ι)} (h : TracksB P U)
include h

local macro "track" : tactic => `(tactic| repeat (first
  | exact h.w | exact h.c | exact h.lam | exact h.rR | exact h.mR | exact h.IRxx | exact h.IRyy
  | exact h.xB | exact h.zB | exact h.mB | exact h.IBxx | exact h.IBxz | exact h.IBzz
  | exact h.xH | exact h.zH | exact h.mH | exact h.IHxx | exact h.IHxz | exact h.IHzz
  | exact h.rF | exact h.mF | exact h.IFxx | exact h.IFyy | assumption
  | apply Tracks.add | apply Tracks.sub | apply Tracks.mul | apply Tracks.div | apply Tracks.neg
  | apply Tracks.pow | apply Tracks.sin | apply Tracks.cos | apply Tracks.lit))

theorem tracks_mT : Tracks (fun z => (P z).mT) U.mT := by
  unfold BenchN.mT; track

theorem tracks_canon (hw : U.w.nom ≠ 0) (hrR : U.rR.nom ≠ 0) (hrF : U.rF.nom ≠ 0)
    (hT : U.mT.nom ≠ 0) (hA : U.mA.nom ≠ 0) (i j : Fin 2) :
    Tracks (fun z => (P z).canon.M i j) (U.canon.M i j) ∧
    Tracks (fun z => (P z).canon.C1 i j) (U.canon.C1 i j) ∧
    Tracks (fun z => (P z).canon.K0 i j) (U.canon.K0 i j) ∧
    Tracks (fun z => (P z).canon.K2 i j) (U.canon.K2 i j) := by
  have mT := tracks_mT h
  have xT : Tracks (fun z => (P z).xT) U.xT := by unfold BenchN.xT; track
  have zT : Tracks (fun z => (P z).zT) U.zT := by unfold BenchN.zT; track
  have ITxx : Tracks (fun z => (P z).ITxx) U.ITxx := by unfold BenchN.ITxx; track
  have ITxz : Tracks (fun z => (P z).ITxz) U.ITxz := by unfold BenchN.ITxz; track
  have ITzz : Tracks (fun z => (P z).ITzz) U.ITzz := by unfold BenchN.ITzz; track
  have mA : Tracks (fun z => (P z).mA) U.mA := by unfold BenchN.mA; track
  have xA : Tracks (fun z => (P z).xA) U.xA := by unfold BenchN.xA; track
  have zA : Tracks (fun z => (P z).zA) U.zA := by unfold BenchN.zA; track
  have IAxx : Tracks (fun z => (P z).IAxx) U.IAxx := by unfold BenchN.IAxx; track
  have IAxz : Tracks (fun z => (P z).IAxz) U.IAxz := by unfold BenchN.IAxz; track
  have IAzz : Tracks (fun z => (P z).IAzz) U.IAzz := by unfold BenchN.IAzz; track
  have uA : Tracks (fun z => (P z).uA) U.uA := by unfold BenchN.uA; track
  have IAll : Tracks (fun z => (P z).IAll) U.IAll := by unfold BenchN.IAll; track
  have IAlx : Tracks (fun z => (P z).IAlx) U.IAlx := by unfold BenchN.IAlx; track
  have IAlz : Tracks (fun z => (P z).IAlz) U.IAlz := by unfold BenchN.IAlz; track
  have mu : Tracks (fun z => (P z).mu) U.mu := by unfold BenchN.mu; track
  have SR : Tracks (fun z => (P z).SR) U.SR := by unfold BenchN.SR; track
  have SF : Tracks (fun z => (P z).SF) U.SF := by unfold BenchN.SF; track
  have ST : Tracks (fun z => (P z).ST) U.ST := by unfold BenchN.ST; track
  have SA : Tracks (fun z => (P z).SA) U.SA := by unfold BenchN.SA; track
  have e0 : Tracks (fun _ : ι → ℝ => (PyNum.lit 0 : ℝ)) (PyNum.lit 0 : UNum ι) := Tracks.lit 0
  have M01 : Tracks (fun z => (P z).IAlx + (P z).mu * (P z).ITxz) (U.IAlx + U.mu * U.ITxz) := by
    track
  have M11 : Tracks (fun z => (P z).IAll + PyNum.lit 2 * (P z).mu * (P z).IAlz +
      (P z).mu ^ 2 * (P z).ITzz) (U.IAll + PyNum.lit 2 * U.mu * U.IAlz + U.mu ^ 2 * U.ITzz) := by
    track
  have K00 : Tracks (fun z => (P z).mT * (P z).zT) (U.mT * U.zT) := by track
  have K01 : Tracks (fun z => -(P z).SA) (-U.SA) := by track
  have K11 : Tracks (fun z => -(P z).SA * PyNum.sin (P z).lam) (-U.SA * PyNum.sin U.lam) := by track
  have K201 : Tracks (fun z => ((P z).ST - (P z).mT * (P z).zT) / (P z).w * PyNum.cos (P z).lam)
      ((U.ST - U.mT * U.zT) / U.w * PyNum.cos U.lam) := by track
  have K211 : Tracks (fun z => ((P z).SA + (P z).SF * PyNum.sin (P z).lam) / (P z).w *
      PyNum.cos (P z).lam) ((U.SA + U.SF * PyNum.sin U.lam) / U.w * PyNum.cos U.lam) := by track
  have C01 : Tracks (fun z => (P z).mu * (P z).ST + (P z).SF * PyNum.cos (P z).lam +
      (P z).ITxz / (P z).w * PyNum.cos (P z).lam - (P z).mu * (P z).mT * (P z).zT)
      (U.mu * U.ST + U.SF * PyNum.cos U.lam + U.ITxz / U.w * PyNum.cos U.lam -
        U.mu * U.mT * U.zT) := by track
  have C10 : Tracks (fun z => -((P z).mu * (P z).ST + (P z).SF * PyNum.cos (P z).lam))
      (-(U.mu * U.ST + U.SF * PyNum.cos U.lam)) := by track
  have C11 : Tracks (fun z => (P z).IAlz / (P z).w * PyNum.cos (P z).lam + (P z).mu *
      ((P z).SA + (P z).ITzz / (P z).w * PyNum.cos (P z).lam))
      (U.IAlz / U.w * PyNum.cos U.lam + U.mu * (U.SA + U.ITzz / U.w * PyNum.cos U.lam)) := by track
  fin_cases i <;> fin_cases j
  · exact ⟨ITxx, e0, K00, e0⟩
  · exact ⟨M01, C01, K01, K201⟩
  · exact ⟨M01, C10, K01, e0⟩
  · exact ⟨M11, C11, K11, K211⟩

end

/-- The dictionary of real numbers obtained when the quantity under each key `k` has the value
`F k z`. -/
def Spec.valuesAt (F : String → (ι → ℝ) → ℝ) (p : Dict (UNum ι)) (z : ι → ℝ) : Dict ℝ :=
  p.map fun e => (e.1, F e.1 z)

/-- The dictionary of the nominal values. -/
def Spec.nominalDict (p : Dict (UNum ι)) : Dict ℝ := p.map fun e => (e.1, e.2.nom)

omit [DecidableEq ι] in
theorem find?_valuesAt (F : String → (ι → ℝ) → ℝ) (p : Dict (UNum ι)) (z : ι → ℝ) (k : String) :
    (valuesAt F p z).find? k = (p.find? k).map fun _ => F k z :=
  find?_map_key (fun k _ => F k z) p k

omit [DecidableEq ι] in
theorem find?_nominalDict (p : Dict (UNum ι)) (k : String) :
    (nominalDict p).find? k = (p.find? k).map UNum.nom :=
  find?_map_key (fun _ => UNum.nom) p k

omit [DecidableEq ι] in
theorem has_nominalDict (p : Dict (UNum ι)) (k : String) : (nominalDict p).has k = p.has k := by
  simp only [Dict.has, find?_nominalDict, Option.isSome_map]

omit [DecidableEq ι] in
theorem getD_nominalDict (p : Dict (UNum ι)) (k : String) :
    (nominalDict p).getD k 0 = (p.getD k (PyNum.lit 0)).nom := by
  simp only [Dict.getD, find?_nominalDict]
  cases p.find? k <;> rfl

theorem canonicalN_of_keys {R : Type} [PyNum R] (p : Dict R)
    (h : ∀ key ∈ canonKeys, Dict.has p key = true) :
    canonicalN p = (Dict.set (Dict.set p "IRzz" (Dict.getD p "IRxx" (PyNum.lit 0))) "IFzz"
        (Dict.getD p "IFxx" (PyNum.lit 0)), .ok (BenchN.ofDict p).canon) := by
  have h1 : Dict.require p canonKeysBefore = .ok () :=
    (Dict.require_ok_iff _ _).2 fun k hk => h k (List.mem_append.2 (Or.inl hk))
  have e0 : Dict.getD (Dict.set p "IRzz" (Dict.getD p "IRxx" (PyNum.lit 0))) "IFxx" (PyNum.lit 0) =
      Dict.getD p "IFxx" (PyNum.lit 0) := by
    rw [Dict.getD_set]; simp
  have h2 : Dict.require (Dict.set (Dict.set p "IRzz" (Dict.getD p "IRxx" (PyNum.lit 0))) "IFzz"
        (Dict.getD p "IFxx" (PyNum.lit 0))) canonKeysAfter = .ok () := by
    refine (Dict.require_ok_iff _ _).2 fun k hk => ?_
    rw [Dict.has_set, Dict.has_set, h k (List.mem_append.2 (Or.inr hk))]; simp
  unfold canonicalN
  simp only [h1, e0, h2]
  simp [BenchN.ofDict, Dict.getD_set]

theorem tracksB_ofDict (p : Dict (UNum ι)) (F : String → (ι → ℝ) → ℝ)
    (hF : ∀ k ∈ canonKeys, ∃ u, p.find? k = some u ∧ Tracks (F k) u) :
    TracksB (fun z => BenchN.ofDict (valuesAt F p z)) (BenchN.ofDict p) := by
  have key : ∀ k ∈ canonKeys, Tracks (fun z => Dict.getD (valuesAt F p z) k (PyNum.lit 0))
      (Dict.getD p k (PyNum.lit 0)) := by
    intro k hk
    obtain ⟨u, hu, hT⟩ := hF k hk
    simpa [Dict.getD, find?_valuesAt, hu] using hT
  constructor <;> exact key _ (by decide)

/-- What first-order propagation through the canonical matrices needs: the keys are there, the
value under each key represents the quantity `F k` to first order, and no division by zero happens
at the nominal values. -/
structure Spec.Propagates (p : Dict (UNum ι)) (F : String → (ι → ℝ) → ℝ) : Prop where
  values : ∀ k ∈ canonKeys, ∃ u, p.find? k = some u ∧ Tracks (F k) u
  w : F "w" 0 ≠ 0
  rR : F "rR" 0 ≠ 0
  rF : F "rF" 0 ≠ 0
  mT : F "mR" 0 + F "mB" 0 + F "mH" 0 + F "mF" 0 ≠ 0
  mA : F "mH" 0 + F "mF" 0 ≠ 0

/-- Every entry of the four matrices with uncertainties represents, to first order, the entry
of the matrices computed from the true values. -/
def Spec.TracksCanon (c : (ι → ℝ) → Canon) (m : CanonN (UNum ι)) : Prop :=
  ∀ i j, Tracks (fun z => (c z).M i j) (m.M i j) ∧ Tracks (fun z => (c z).C1 i j) (m.C1 i j) ∧
    Tracks (fun z => (c z).K0 i j) (m.K0 i j) ∧ Tracks (fun z => (c z).K2 i j) (m.K2 i j)

theorem C122_canonical (p : Dict (UNum ι)) (F : String → (ι → ℝ) → ℝ) (h : Propagates p F) :
    ∃ p' m c, canonicalN p = (p', .ok m) ∧
      (∀ z, (benchmarkParToCanonical (valuesAt F p z)).2 = .ok (c z)) ∧ TracksCanon c m := by
  have hv : ∀ k ∈ canonKeys, F k 0 = (p.getD k (PyNum.lit 0)).nom := by
    intro k hk
    obtain ⟨u, hu, hT⟩ := h.values k hk
    rw [hT.1]; simp [Dict.getD, hu]
  have hk : ∀ k ∈ canonKeys, p.has k = true := fun k hk => by
    obtain ⟨u, hu, -⟩ := h.values k hk
    simp [Dict.has, hu]
  refine ⟨_, _, fun z => (Bench.ofDict (valuesAt F p z)).canon, canonicalN_of_keys p hk,
    fun z => ?_, ?_⟩
  · rw [canonical_of_keys]
    intro k hk'
    obtain ⟨u, hu, -⟩ := h.values k hk'
    simp [Dict.has, find?_valuesAt, hu]
  · intro i j
    refine tracks_canon (tracksB_ofDict p F h.values) ?_ ?_ ?_ ?_ ?_ i j
    · exact (hv "w" (by decide)) ▸ h.w
    · exact (hv "rR" (by decide)) ▸ h.rR
    · exact (hv "rF" (by decide)) ▸ h.rF
    · have := h.mT
      rwa [hv _ (by decide), hv _ (by decide), hv _ (by decide), hv _ (by decide)] at this
    · have := h.mA
      rwa [hv _ (by decide), hv _ (by decide)] at this

/-! ## Nominal values -/

omit [DecidableEq ι] in
theorem canonN_nom (U : BenchN (UNum ι)) (P : BenchN ℝ)
    (h : P = ⟨U.w.nom, U.c.nom, U.lam.nom, U.rR.nom, U.mR.nom, U.IRxx.nom, U.IRyy.nom, U.xB.nom,
      U.zB.nom, U.mB.nom, U.IBxx.nom, U.IBxz.nom, U.IBzz.nom, U.xH.nom, U.zH.nom, U.mH.nom,
      U.IHxx.nom, U.IHxz.nom, U.IHzz.nom, U.rF.nom, U.mF.nom, U.IFxx.nom, U.IFyy.nom⟩) :
    nominalValues U.canon.M = P.canon.M ∧ nominalValues U.canon.C1 = P.canon.C1 ∧
    nominalValues U.canon.K0 = P.canon.K0 ∧ nominalValues U.canon.K2 = P.canon.K2 := by
  subst h
  refine ⟨?_, ?_, ?_, ?_⟩ <;> ext i j <;> fin_cases i <;> fin_cases j <;> rfl

/-- The matrices of nominal values among what `canonical` returned. -/
def Spec.nominalCanon : Returned (CanonN ℝ) (CanonN (UNum ι)) → Canon
  | .plain m => ⟨m.M, m.C1, m.K0, m.K2⟩
  | .uncertain m => ⟨nominalValues m.M, nominalValues m.C1, nominalValues m.K0, nominalValues m.K2⟩

/-- The matrices of nominal values among what `state_space` returned. -/
def Spec.nominalAB : Returned (Matrix (Fin 4) (Fin 4) ℝ × Matrix (Fin 4) (Fin 2) ℝ)
      (Matrix (Fin 4) (Fin 4) (UNum ι) × Matrix (Fin 4) (Fin 2) (UNum ι)) →
    Matrix (Fin 4) (Fin 4) ℝ × Matrix (Fin 4) (Fin 2) ℝ
  | .plain m => m
  | .uncertain m => (nominalValues m.1, nominalValues m.2)

/-- Plain numbers for `nominal=True`, numbers with uncertainties for `nominal=False`. -/
def Spec.KindFits {α β : Type} : Nominal → Returned α β → Prop
  | .yes, .plain _ => True
  | .no, .uncertain _ => True
  | _, _ => False

/-- All parameter sets of the bicycle reduced to nominal values. -/
def Spec.nominalSets (params : Dict (Dict (UNum ι))) : Dict (Dict ℝ) :=
  params.map fun e => (e.1, nominalDict e.2)

omit [DecidableEq ι] in
theorem set_nominalDict (p : Dict (UNum ι)) (k : String) (u : UNum ι) :
    nominalDict (p.set k u) = (nominalDict p).set k u.nom := by
  induction p with
  | nil => rfl
  | cons e p ih =>
    obtain ⟨k', v⟩ := e
    simp only [nominalDict, Dict.set, List.map_cons] at ih ⊢
    split
    · simp
    · simp [ih]

omit [DecidableEq ι] in
theorem set_nominalSets (ps : Dict (Dict (UNum ι))) (k : String) (u : Dict (UNum ι)) :
    nominalSets (ps.set k u) = (nominalSets ps).set k (nominalDict u) := by
  induction ps with
  | nil => rfl
  | cons e p ih =>
    obtain ⟨k', v⟩ := e
    simp only [nominalSets, Dict.set, List.map_cons] at ih ⊢
    split
    · simp
    · simp [ih]

omit [DecidableEq ι] in
theorem require_nominalDict (p : Dict (UNum ι)) (ks : List String) :
    (nominalDict p).require ks = p.require ks := by
  induction ks with
  | nil => rfl
  | cons k ks ih =>
    simp only [Dict.require, find?_nominalDict, ih]
    cases p.find? k <;> rfl

omit [DecidableEq ι] in
theorem canonicalN_nominal (p : Dict (UNum ι)) :
    benchmarkParToCanonical (nominalDict p) = (nominalDict (canonicalN p).1,
      (canonicalN p).2.map fun m =>
        ⟨nominalValues m.M, nominalValues m.C1, nominalValues m.K0, nominalValues m.K2⟩) := by
  unfold benchmarkParToCanonical canonicalN
  simp only [require_nominalDict]
  cases p.require canonKeysBefore with
  | error e => rfl
  | ok _ =>
    simp only [getD_nominalDict, ← set_nominalDict, require_nominalDict]
    generalize hq : ((p.set "IRzz" (p.getD "IRxx" (PyNum.lit 0))).set "IFzz" _) = q
    cases q.require canonKeysAfter with
    | error e => rfl
    | ok _ =>
      refine Prod.ext rfl ?_
      simp only [Except.map, Except.ok.injEq]
      obtain ⟨h1, h2, h3, h4⟩ := canonN_nom (BenchN.ofDict q) (BenchN.ofDict (nominalDict q)) (by
        simp only [BenchN.ofDict, BenchN.mk.injEq]
        refine ⟨?_, ?_, ?_, ?_, ?_, ?_, ?_, ?_, ?_, ?_, ?_, ?_, ?_, ?_, ?_, ?_, ?_, ?_, ?_, ?_, ?_, ?_,
          ?_⟩ <;> exact getD_nominalDict q _)
      rw [h1, h2, h3, h4]
      rfl

omit [DecidableEq ι] in
theorem find?_nominalSets (ps : Dict (Dict (UNum ι))) (k : String) :
    (nominalSets ps).find? k = (ps.find? k).map nominalDict :=
  find?_map_key (fun _ u => nominalDict u) ps k

omit [DecidableEq ι] in
/-- `canonical`: the nominal values are those computed from the nominal parameters, with the same
exceptions and the same effect on the parameters, for all parameter sets. -/
theorem C122_nominal_canonical (params : Dict (Dict (UNum ι))) (n : Nominal) :
    bikeCanonical (nominalSets params) n =
        (nominalSets (bikeCanonicalU params n).1, (bikeCanonicalU params n).2.map nominalCanon) ∧
      ∀ r, (bikeCanonicalU params n).2 = .ok r → KindFits n r := by
  unfold bikeCanonical bikeCanonicalU
  simp only [Dict.get, find?_nominalSets]
  cases params.find? "Benchmark" with
  | none => exact ⟨rfl, fun r h => by cases h⟩
  | some par =>
    simp only [Option.map_some, canonicalN_nominal, set_nominalSets]
    rcases canonicalN par with ⟨par', r⟩
    cases r with
    | error e => exact ⟨rfl, fun r h => by cases h⟩
    | ok m => cases n <;> exact ⟨rfl, fun r h => by cases h <;> trivial⟩

omit [DecidableEq ι] in
theorem abN_nominal (m : CanonN (UNum ι)) (v : ℝ) (g : UNum ι) :
    nominalValues (abN m v g).1 = abA (nominalValues m.M) (nominalValues m.C1) (nominalValues m.K0)
      (nominalValues m.K2) v g.nom ∧ nominalValues (abN m v g).2 = abB (nominalValues m.M) := by
  have hi : ∀ i j, (invN m.M i j).nom = invM (nominalValues m.M) i j := by
    intro i j
    fin_cases i <;> fin_cases j <;> rfl
  have hs : ∀ (a b : Matrix (Fin 2) (Fin 2) (UNum ι)) i j,
      (negDotN a b i j).nom = (-(nominalValues a * nominalValues b)) i j := by
    intro a b i j
    simp only [Matrix.neg_apply, Matrix.mul_apply, Fin.sum_univ_two]
    rfl
  have hi' : nominalValues (invN m.M) = invM (nominalValues m.M) := by ext i j; exact hi i j
  have hp : ∀ i j, (negDotN (invN m.M) (fun k l => g * m.K0 k l + PyNum.lit (v ^ 2) * m.K2 k l)
      i j).nom = a21 (nominalValues m.M) (nominalValues m.K0) (nominalValues m.K2) v g.nom i j := by
    intro i j
    refine (hs _ _ i j).trans ?_
    rw [hi']; rfl
  have hq : ∀ i j, (negDotN (invN m.M) (fun k l => PyNum.lit v * m.C1 k l) i j).nom =
      a22 (nominalValues m.M) (nominalValues m.C1) v i j := by
    intro i j
    refine (hs _ _ i j).trans ?_
    rw [hi']; rfl
  constructor
  · ext i j
    fin_cases i <;> fin_cases j <;> first
      | rfl
      | exact hp _ _
      | exact hq _ _
  · ext i j
    fin_cases i <;> fin_cases j <;> rfl

omit [DecidableEq ι] in
/-- `state_space`: the same. -/
theorem C122_nominal_state_space (params : Dict (Dict (UNum ι))) (v : ℝ) (n : Nominal) :
    bikeStateSpace (nominalSets params) v n =
        (nominalSets (bikeStateSpaceU params v n).1,
          (bikeStateSpaceU params v n).2.map nominalAB) ∧
      ∀ r, (bikeStateSpaceU params v n).2 = .ok r → KindFits n r := by
  unfold bikeStateSpace bikeStateSpaceU
  obtain ⟨h, hk⟩ := C122_nominal_canonical params .no
  rw [h]
  generalize hU : bikeCanonicalU params .no = r at h hk ⊢
  obtain ⟨params', r⟩ := r
  cases r with
  | error e => exact ⟨rfl, fun r h => by cases h⟩
  | ok m =>
    cases m with
    | plain m => exact absurd (hk _ rfl) (by simp [KindFits])
    | uncertain m =>
      simp only [Except.map, Dict.get, find?_nominalSets]
      cases params'.find? "Benchmark" with
      | none => exact ⟨rfl, fun r h => by cases h⟩
      | some par =>
        simp only [Option.map_some, find?_nominalDict]
        cases par.find? "g" with
        | none => exact ⟨rfl, fun r h => by cases h⟩
        | some g =>
          obtain ⟨hA, hB⟩ := abN_nominal m v g
          simp only [Option.map_some]
          cases n
          all_goals
            refine ⟨Prod.ext rfl ?_, fun r h => by cases h <;> trivial⟩
            first
              | rfl
              | (simp only [selectNominal, Except.map, nominalAB, hA, hB, nominalCanon, id])

/-! ## First order propagation through the state space -/

/-- The parameter sets of real numbers obtained when the quantity under the key `k` of the set
`s` has the value `F s k z`. -/
def Spec.setsAt (F : String → String → (ι → ℝ) → ℝ) (params : Dict (Dict (UNum ι))) (z : ι → ℝ) :
    Dict (Dict ℝ) :=
  params.map fun e => (e.1, valuesAt (F e.1) e.2 z)

omit [DecidableEq ι] in
theorem find?_setsAt (F : String → String → (ι → ℝ) → ℝ) (params : Dict (Dict (UNum ι)))
    (z : ι → ℝ) (k : String) :
    (setsAt F params z).find? k = (params.find? k).map fun q => valuesAt (F k) q z :=
  find?_map_key (fun k q => valuesAt (F k) q z) params k

theorem tracks_inv {c : (ι → ℝ) → Matrix (Fin 2) (Fin 2) ℝ} {m : Matrix (Fin 2) (Fin 2) (UNum ι)}
    (h : ∀ i j, Tracks (fun z => c z i j) (m i j)) (hd : (c 0).det ≠ 0) (i j : Fin 2) :
    Tracks (fun z => invM (c z) i j) (invN m i j) := by
  have hdet : (m 0 0 * m 1 1 - m 0 1 * m 1 0).nom ≠ 0 := by
    have e : ∀ i j, c 0 i j = (m i j).nom := fun i j => (h i j).1
    rw [Matrix.det_fin_two, e, e, e, e] at hd
    exact hd
  have hq := (Tracks.lit (1 : ℝ)).div (((h 0 0).mul (h 1 1)).sub ((h 0 1).mul (h 1 0))) hdet
  fin_cases i <;> fin_cases j
  · exact hq.mul (h 1 1)
  · exact hq.mul (h 0 1).neg
  · exact hq.mul (h 1 0).neg
  · exact hq.mul (h 0 0)

theorem tracks_negDot {c d : (ι → ℝ) → Matrix (Fin 2) (Fin 2) ℝ}
    {m n : Matrix (Fin 2) (Fin 2) (UNum ι)} (h : ∀ i j, Tracks (fun z => c z i j) (m i j))
    (h' : ∀ i j, Tracks (fun z => d z i j) (n i j)) (i j : Fin 2) :
    Tracks (fun z => (-(c z * d z)) i j) (negDotN m n i j) := by
  have e : (fun z => (-(c z * d z)) i j) =
      fun z => -(c z i 0 * d z 0 j + c z i 1 * d z 1 j) := by
    funext z
    simp [Matrix.mul_apply, Fin.sum_univ_two]
  rw [e]
  exact (((h i 0).mul (h' 0 j)).add ((h i 1).mul (h' 1 j))).neg

theorem tracks_ab {c : (ι → ℝ) → Canon} {m : CanonN (UNum ι)} (h : TracksCanon c m)
    (hd : (c 0).M.det ≠ 0) (v : ℝ) {G : (ι → ℝ) → ℝ} {g : UNum ι} (hg : Tracks G g) :
    (∀ i j, Tracks (fun z => abA (c z).M (c z).C1 (c z).K0 (c z).K2 v (G z) i j)
      ((abN m v g).1 i j)) ∧
    ∀ i j, Tracks (fun z => abB (c z).M i j) ((abN m v g).2 i j) := by
  have hi := tracks_inv (fun i j => (h i j).1) hd
  have hp := fun i j => tracks_negDot (d := fun z => G z • (c z).K0 + v ^ 2 • (c z).K2) hi
    (fun i j => (hg.mul (h i j).2.2.1).add ((Tracks.lit (v ^ 2)).mul (h i j).2.2.2)) i j
  have hq := fun i j => tracks_negDot (d := fun z => v • (c z).C1) hi
    (fun i j => (Tracks.lit v).mul (h i j).2.1) i j
  have e0 : Tracks (fun _ : ι → ℝ => (0 : ℝ)) (PyNum.lit 0 : UNum ι) := Tracks.lit 0
  have e1 : Tracks (fun _ : ι → ℝ => (1 : ℝ)) (PyNum.lit 1 : UNum ι) := Tracks.lit 1
  constructor
  · intro i j
    fin_cases i <;> fin_cases j
    · exact e0
    · exact e0
    · exact e1
    · exact e0
    · exact e0
    · exact e0
    · exact e0
    · exact e1
    · exact hp 0 0
    · exact hp 0 1
    · exact hq 0 0
    · exact hq 0 1
    · exact hp 1 0
    · exact hp 1 1
    · exact hq 1 0
    · exact hq 1 1
  · intro i j
    fin_cases i <;> fin_cases j
    · exact e0
    · exact e0
    · exact e0
    · exact e0
    · exact hi 0 0
    · exact hi 0 1
    · exact hi 1 0
    · exact hi 1 1

/-- `state_space`: every entry represents, to first order, the entry computed from the true
values, provided the mass matrix of the nominal values is invertible. -/
theorem C122_state_space (params : Dict (Dict (UNum ι))) (F : String → String → (ι → ℝ) → ℝ)
    (par : Dict (UNum ι)) (hpar : params.find? "Benchmark" = some par)
    (h : Propagates par (F "Benchmark")) {g : UNum ι} (hg : par.find? "g" = some g)
    (hG : Tracks (F "Benchmark" "g") g)
    (hd : ∀ c, (benchmarkParToCanonical (valuesAt (F "Benchmark") par 0)).2 = .ok c → c.M.det ≠ 0)
    (v : ℝ) :
    ∃ A B, ∃ a : (ι → ℝ) → Matrix (Fin 4) (Fin 4) ℝ, ∃ b : (ι → ℝ) → Matrix (Fin 4) (Fin 2) ℝ,
      (bikeStateSpaceU params v .no).2 = .ok (.uncertain (A, B)) ∧
      (∀ z, (bikeStateSpace (setsAt F params z) v .no).2 = .ok (a z, b z)) ∧
      (∀ i j, Tracks (fun z => a z i j) (A i j)) ∧ ∀ i j, Tracks (fun z => b z i j) (B i j) := by
  obtain ⟨p', m, c, hU, hc, hT⟩ := C122_canonical par _ h
  obtain ⟨hA, hB⟩ := tracks_ab hT (hd _ (hc 0)) v hG
  have hp' : p'.find? "g" = some g := by
    have hk : ∀ k ∈ canonKeys, par.has k = true := fun k hk => by
      obtain ⟨u, hu, -⟩ := h.values k hk
      simp [Dict.has, hu]
    rw [canonicalN_of_keys par hk] at hU
    rw [← (Prod.mk.inj hU).1, Dict.find?_set_of_ne _ _ (by decide),
      Dict.find?_set_of_ne _ _ (by decide), hg]
  refine ⟨_, _, _, _, ?_, fun z => ?_, hA, hB⟩
  · unfold bikeStateSpaceU bikeCanonicalU
    simp only [Dict.get, hpar, hU, Dict.find?_set_self, hp']
  · unfold bikeStateSpace bikeCanonical
    have hz : (valuesAt (F "Benchmark") par z).find? "g" = some (F "Benchmark" "g" z) := by
      rw [find?_valuesAt, hg]; rfl
    have hk : ∀ k ∈ canonKeys, (valuesAt (F "Benchmark") par z).has k = true := fun k hk => by
      obtain ⟨u, hu, -⟩ := h.values k hk
      simp [Dict.has, find?_valuesAt, hu]
    have hcz := hc z
    rw [canonical_of_keys _ hk] at hcz
    have hcz := Except.ok.inj hcz
    rw [← hcz]
    simp only [Dict.get, find?_setsAt, hpar, Option.map_some, canonical_of_keys _ hk, selectNominal,
      Dict.find?_set_self, Dict.find?_set_of_ne _ _ (show "IFzz" ≠ "g" by decide),
      Dict.find?_set_of_ne _ _ (show "IRzz" ≠ "g" by decide), hz]

/-! ## Independent measurements -/

/-- The keys whose values the canonical matrices depend on. -/
abbrev Spec.CanonKey : Type := {k // k ∈ canonKeys}

/-- Independently measured values: under each key `k` the value of `p` with the standard deviation
`σ k`. -/
def Spec.measured (p : Dict ℝ) (σ : String → ℝ) : Dict (UNum CanonKey) :=
  p.map fun e => (e.1, ⟨e.2, fun i => if i.1 = e.1 then σ e.1 else 0⟩)

/-- The textbook formula for the standard deviation of `f`, a function of independent values. -/
def Spec.StdFormula (p : Dict ℝ) (σ : String → ℝ) (f : Dict ℝ → ℝ) (u : UNum CanonKey) : Prop :=
  ∃ D : CanonKey → ℝ, (∀ k, HasDerivAt (fun x : ℝ => f (p.set k.1 x)) (D k) (p.getD k.1 0)) ∧
    u.std = √(∑ k, (D k * σ k.1) ^ 2)

/-- The entry of one of the matrices that `benchmark_par_to_canonical` returns for `d`. -/
noncomputable def Spec.canonEntry (s : Canon → Matrix (Fin 2) (Fin 2) ℝ) (i j : Fin 2) (d : Dict ℝ) : ℝ :=
  match (benchmarkParToCanonical d).2 with
  | .ok c => s c i j
  | .error _ => 0

/-- The quantities behind `measured p σ`. -/
noncomputable def measuredF (p : Dict ℝ) (σ : String → ℝ) (k : String) (z : CanonKey → ℝ) : ℝ :=
  if h : k ∈ canonKeys then p.getD k 0 + σ k * z ⟨k, h⟩ else p.getD k 0

theorem find?_measured (p : Dict ℝ) (σ : String → ℝ) (k : String) :
    (measured p σ).find? k = (p.find? k).map fun x => ⟨x, fun i => if i.1 = k then σ k else 0⟩ :=
  find?_map_key (fun k x => (⟨x, fun i => if i.1 = k then σ k else 0⟩ : UNum CanonKey)) p k

theorem measured_tracks (p : Dict ℝ) (σ : String → ℝ) (k : String) (x : ℝ) (hx : p.find? k = some x) :
    Tracks (measuredF p σ k) ⟨x, fun i => if i.1 = k then σ k else 0⟩ := by
  have hx' : p.getD k 0 = x := Dict.getD_eq_of_find? _ _ _ _ hx
  refine ⟨by simp [measuredF, hx'], fun i => ?_⟩
  by_cases hi : i.1 = k
  · subst hi
    have e : (fun t : ℝ => measuredF p σ i.1 (Pi.single i t)) = fun t => x + σ i.1 * t := by
      funext t
      simp [measuredF, hx', i.2]
    rw [e]
    show HasDerivAt (fun t => x + σ i.1 * t) (if i.1 = i.1 then σ i.1 else 0) 0
    rw [if_pos rfl]
    simpa using ((hasDerivAt_id (0 : ℝ)).const_mul (σ i.1)).const_add x
  · have e : (fun t : ℝ => measuredF p σ k (Pi.single i t)) = fun _ => x := by
      funext t
      unfold measuredF
      split
      · rw [Pi.single_eq_of_ne (by
          intro h; exact hi (congrArg Subtype.val h).symm)]
        simp [hx']
      · exact hx'
    rw [e]
    simp only [hi, if_false]
    exact hasDerivAt_const _ _

theorem measured_find_single (p : Dict ℝ) (σ : String → ℝ) (hk : ∀ k ∈ canonKeys, p.has k = true)
    (i : CanonKey) (t : ℝ) : ∀ k ∈ canonKeys,
    (valuesAt (measuredF p σ) (measured p σ) (Pi.single i t)).find? k =
      (p.set i.1 (p.getD i.1 0 + σ i.1 * t)).find? k := by
  intro k hkk
  obtain ⟨x, hx⟩ := (Dict.has_iff_exists _ _).1 (hk k hkk)
  rw [find?_valuesAt, find?_measured, hx, Dict.find?_set]
  by_cases h : i.1 = k
  · subst h
    simp [measuredF, hkk]
  · have hne : (⟨k, hkk⟩ : CanonKey) ≠ i := fun e => h (congrArg Subtype.val e).symm
    have hx' : p.getD k 0 = x := Dict.getD_eq_of_find? _ _ _ _ hx
    have h' : ¬ k = i.1 := fun e => h e.symm
    simp [measuredF, hkk, h, h', hne, Pi.single_eq_of_ne hne, hx', hx]

theorem stdFormula_of_tracks (p : Dict ℝ) (hk : ∀ k ∈ canonKeys, p.has k = true) (f : Dict ℝ → ℝ)
    (hf : ∀ d d', (∀ k ∈ canonKeys, d.find? k = d'.find? k) → f d = f d')
    (u : (String → ℝ) → UNum CanonKey)
    (hu : ∀ σ, Tracks (fun z => f (valuesAt (measuredF p σ) (measured p σ) z)) (u σ))
    (σ : String → ℝ) : StdFormula p σ f (u σ) := by
  have key : ∀ (σ : String → ℝ) (i : CanonKey), HasDerivAt
      (fun t : ℝ => f (p.set i.1 (p.getD i.1 0 + σ i.1 * t))) ((u σ).lin i) 0 := by
    intro σ i
    refine ((hu σ).2 i).congr_of_eventuallyEq (Filter.Eventually.of_forall fun t => ?_)
    exact (hf _ _ (measured_find_single p σ hk i t)).symm
  have hD : ∀ k : CanonKey, HasDerivAt (fun x : ℝ => f (p.set k.1 x)) ((u fun _ => 1).lin k)
      (p.getD k.1 0) := by
    intro k
    have h1 := key (fun _ => 1) k
    have h2 : HasDerivAt (fun x : ℝ => x - p.getD k.1 0) 1 (p.getD k.1 0) :=
      (hasDerivAt_id _).sub_const _
    have h1' : HasDerivAt (fun t : ℝ => f (p.set k.1 (p.getD k.1 0 + 1 * t))) ((u fun _ => 1).lin k)
        ((fun x : ℝ => x - p.getD k.1 0) (p.getD k.1 0)) := by
      dsimp only
      rw [sub_self]; exact h1
    have h3 := HasDerivAt.comp (h₂ := fun t : ℝ => f (p.set k.1 (p.getD k.1 0 + 1 * t)))
      (h := fun x : ℝ => x - p.getD k.1 0) (p.getD k.1 0) h1' h2
    rw [mul_one] at h3
    refine h3.congr_of_eventuallyEq (Filter.Eventually.of_forall fun x => ?_)
    show f (p.set k.1 x) = f (p.set k.1 (p.getD k.1 0 + 1 * (x - p.getD k.1 0)))
    congr 2; ring
  refine ⟨(u fun _ => 1).lin, hD, ?_⟩
  unfold UNum.std
  congr 1
  refine Finset.sum_congr rfl fun k _ => ?_
  congr 1
  have h2 : HasDerivAt (fun t : ℝ => p.getD k.1 0 + σ k.1 * t) (σ k.1) 0 := by
    simpa using ((hasDerivAt_id (0 : ℝ)).const_mul (σ k.1)).const_add (p.getD k.1 0)
  have h1' : HasDerivAt (fun x : ℝ => f (p.set k.1 x)) ((u fun _ => 1).lin k)
      ((fun t : ℝ => p.getD k.1 0 + σ k.1 * t) 0) := by
    dsimp only
    rw [mul_zero, add_zero]; exact hD k
  exact (key σ k).unique (HasDerivAt.comp (h₂ := fun x : ℝ => f (p.set k.1 x))
    (h := fun t : ℝ => p.getD k.1 0 + σ k.1 * t) (0 : ℝ) h1' h2)

/-- For independently measured values the standard deviation of each entry of the four matrices
is the root of the sum of the squares of (partial derivative times standard deviation). -/
theorem C122_independent (p : Dict ℝ) (σ : String → ℝ) (hk : ∀ k ∈ canonKeys, p.has k = true)
    (hw : p.getD "w" 0 ≠ 0) (hrR : p.getD "rR" 0 ≠ 0) (hrF : p.getD "rF" 0 ≠ 0)
    (hT : p.getD "mR" 0 + p.getD "mB" 0 + p.getD "mH" 0 + p.getD "mF" 0 ≠ 0)
    (hA : p.getD "mH" 0 + p.getD "mF" 0 ≠ 0) :
    ∃ p' m, canonicalN (measured p σ) = (p', .ok m) ∧ ∀ i j,
      StdFormula p σ (canonEntry Canon.M i j) (m.M i j) ∧
      StdFormula p σ (canonEntry Canon.C1 i j) (m.C1 i j) ∧
      StdFormula p σ (canonEntry Canon.K0 i j) (m.K0 i j) ∧
      StdFormula p σ (canonEntry Canon.K2 i j) (m.K2 i j) := by
  have hP : ∀ σ : String → ℝ, Propagates (measured p σ) (measuredF p σ) := by
    intro σ
    have h0 : ∀ k, measuredF p σ k 0 = p.getD k 0 := by
      intro k; unfold measuredF; split <;> simp
    refine ⟨fun k hkk => ?_, by rwa [h0], by rwa [h0], by rwa [h0], by simpa only [h0] using hT,
      by simpa only [h0] using hA⟩
    obtain ⟨x, hx⟩ := (Dict.has_iff_exists _ _).1 (hk k hkk)
    exact ⟨_, by rw [find?_measured, hx]; rfl, measured_tracks p σ k x hx⟩
  have hkm : ∀ σ : String → ℝ, ∀ k ∈ canonKeys, (measured p σ).has k = true := fun σ k hkk => by
    obtain ⟨u, hu, -⟩ := (hP σ).values k hkk
    simp [Dict.has, hu]
  have hall : ∀ (σ : String → ℝ) (i j : Fin 2),
      Tracks (fun z => canonEntry Canon.M i j (valuesAt (measuredF p σ) (measured p σ) z))
        ((BenchN.ofDict (measured p σ)).canon.M i j) ∧
      Tracks (fun z => canonEntry Canon.C1 i j (valuesAt (measuredF p σ) (measured p σ) z))
        ((BenchN.ofDict (measured p σ)).canon.C1 i j) ∧
      Tracks (fun z => canonEntry Canon.K0 i j (valuesAt (measuredF p σ) (measured p σ) z))
        ((BenchN.ofDict (measured p σ)).canon.K0 i j) ∧
      Tracks (fun z => canonEntry Canon.K2 i j (valuesAt (measuredF p σ) (measured p σ) z))
        ((BenchN.ofDict (measured p σ)).canon.K2 i j) := fun σ i j => by
    obtain ⟨p', m, c, hU, hc, hT⟩ := C122_canonical _ _ (hP σ)
    rw [canonicalN_of_keys _ (hkm σ)] at hU
    have hm := Except.ok.inj (Prod.mk.inj hU).2
    rw [← hm] at hT
    have hs : ∀ (s : Canon → Matrix (Fin 2) (Fin 2) ℝ),
        (fun z => canonEntry s i j (valuesAt (measuredF p σ) (measured p σ) z)) =
          fun z => s (c z) i j := by
      intro s; funext z; unfold canonEntry; rw [hc z]
    rw [hs, hs, hs, hs]
    exact hT i j
  refine ⟨_, _, canonicalN_of_keys _ (hkm σ), fun i j => ?_⟩
  have hf : ∀ (s : Canon → Matrix (Fin 2) (Fin 2) ℝ) (d d' : Dict ℝ),
      (∀ k ∈ canonKeys, d.find? k = d'.find? k) → canonEntry s i j d = canonEntry s i j d' := by
    intro s d d' h
    unfold canonEntry
    rw [C03_canonical_depends_only_on_its_keys d d' h]
  exact ⟨stdFormula_of_tracks p hk _ (hf _) (fun σ => (BenchN.ofDict (measured p σ)).canon.M i j)
      (fun σ => (hall σ i j).1) σ,
    stdFormula_of_tracks p hk _ (hf _) (fun σ => (BenchN.ofDict (measured p σ)).canon.C1 i j)
      (fun σ => (hall σ i j).2.1) σ,
    stdFormula_of_tracks p hk _ (hf _) (fun σ => (BenchN.ofDict (measured p σ)).canon.K0 i j)
      (fun σ => (hall σ i j).2.2.1) σ,
    stdFormula_of_tracks p hk _ (hf _) (fun σ => (BenchN.ofDict (measured p σ)).canon.K2 i j)
      (fun σ => (hall σ i j).2.2.2) σ⟩

theorem example_keys : ∀ key ∈ canonKeys, Dict.has exampleDict key = true := by
  intro key hk
  simp only [canonKeys, canonKeysBefore, canonKeysAfter, List.cons_append, List.nil_append,
    List.mem_cons, List.not_mem_nil, or_false] at hk
  rcases hk with h | h | h | h | h | h | h | h | h | h | h | h | h | h | h | h | h | h | h | h | h | h | h <;>
    subst h <;> simp [exampleDict, Dict.has, Dict.find?]

/-- non-vacuity of C122: a bicycle measured with the standard deviation 1/100 of every value -/
example : ∃ p' m, canonicalN (measured exampleDict fun _ => 1 / 100) = (p', .ok m) ∧ ∀ i j,
    StdFormula exampleDict (fun _ => 1 / 100) (canonEntry Canon.M i j) (m.M i j) ∧
    StdFormula exampleDict (fun _ => 1 / 100) (canonEntry Canon.C1 i j) (m.C1 i j) ∧
    StdFormula exampleDict (fun _ => 1 / 100) (canonEntry Canon.K0 i j) (m.K0 i j) ∧
    StdFormula exampleDict (fun _ => 1 / 100) (canonEntry Canon.K2 i j) (m.K2 i j) :=
  C122_independent exampleDict _ example_keys (by simp [exampleDict, Dict.getD, Dict.find?])
    (by simp [exampleDict, Dict.getD, Dict.find?]) (by simp [exampleDict, Dict.getD, Dict.find?])
    (by simp [exampleDict, Dict.getD, Dict.find?]; norm_num)
    (by simp [exampleDict, Dict.getD, Dict.find?]; norm_num)

theorem measured_propagates (p : Dict ℝ) (σ : String → ℝ) (hk : ∀ k ∈ canonKeys, p.has k = true)
    (hw : p.getD "w" 0 ≠ 0) (hrR : p.getD "rR" 0 ≠ 0) (hrF : p.getD "rF" 0 ≠ 0)
    (hT : p.getD "mR" 0 + p.getD "mB" 0 + p.getD "mH" 0 + p.getD "mF" 0 ≠ 0)
    (hA : p.getD "mH" 0 + p.getD "mF" 0 ≠ 0) : Propagates (measured p σ) (measuredF p σ) := by
  have h0 : ∀ k, measuredF p σ k 0 = p.getD k 0 := by
    intro k; unfold measuredF; split <;> simp
  refine ⟨fun k hkk => ?_, by rwa [h0], by rwa [h0], by rwa [h0], by simpa only [h0] using hT,
    by simpa only [h0] using hA⟩
  obtain ⟨x, hx⟩ := (Dict.has_iff_exists _ _).1 (hk k hkk)
  exact ⟨_, by rw [find?_measured, hx]; rfl, measured_tracks p σ k x hx⟩

/-- non-vacuity of C122: the state space of the same bicycle at 5 m/s -/
example : ∃ A B, (bikeStateSpaceU [("Benchmark", measured exampleDict fun _ => 1 / 100)] 5 .no).2 =
    .ok (.uncertain (A, B)) := by
  have hP := measured_propagates exampleDict (fun _ => 1 / 100) example_keys
    (by simp [exampleDict, Dict.getD, Dict.find?])
    (by simp [exampleDict, Dict.getD, Dict.find?]) (by simp [exampleDict, Dict.getD, Dict.find?])
    (by simp [exampleDict, Dict.getD, Dict.find?]; norm_num)
    (by simp [exampleDict, Dict.getD, Dict.find?]; norm_num)
  have hg : exampleDict.find? "g" = some 9 := by simp [exampleDict, Dict.find?]
  obtain ⟨A, B, _, _, h, _⟩ := C122_state_space [("Benchmark", measured exampleDict fun _ => 1 / 100)]
    (fun _ => measuredF exampleDict fun _ => 1 / 100) _ rfl hP
    (by rw [find?_measured, hg]; rfl) (measured_tracks exampleDict (fun _ => 1 / 100) "g" 9 hg)
    (by
      intro c hc
      have hz : (benchmarkParToCanonical (valuesAt (measuredF exampleDict fun _ => 1 / 100)
          (measured exampleDict fun _ => 1 / 100) 0)).2 = (benchmarkParToCanonical exampleDict).2 := by
        apply C03_canonical_depends_only_on_its_keys
        intro k hk
        obtain ⟨x, hx⟩ := (Dict.has_iff_exists _ _).1 (example_keys k hk)
        have hx' : exampleDict.getD k 0 = x := Dict.getD_eq_of_find? _ _ _ _ hx
        rw [find?_valuesAt, find?_measured, hx]
        simp [measuredF, hk, hx']
      rw [hz, canonical_of_keys _ example_keys] at hc
      rw [← Except.ok.inj hc]
      simp [Bench.canon, Bench.ofDict, exampleDict, Dict.getD, Dict.find?, Bench.M, Matrix.det_fin_two,
        Bench.ITxx, Bench.ITxz, Bench.ITzz, Bench.IAlx, Bench.IAlz, Bench.IAll, Bench.mu, Bench.uA, Bench.IAxx,
        Bench.IAxz, Bench.IAzz, Bench.mA, Bench.xA, Bench.zA, Bench.IRzz, Bench.IFzz]
      norm_num)
    5
  exact ⟨A, B, h⟩

end BP
