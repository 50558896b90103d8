import Verif.Props.UncertainTilt

/-!
# C124: uncertainties of the benchmark geometry
-/

set_option linter.unusedSimpArgs false

namespace BP

open Matrix Spec

variable {ι : Type}

/-- A map that commutes with everything the code does with numbers. -/
structure PyHom {R S : Type} [PyNum R] [PyNum S] (φ : R → S) : Prop where
  add : ∀ x y, φ (x + y) = φ x + φ y
  sub : ∀ x y, φ (x - y) = φ x - φ y
  mul : ∀ x y, φ (x * y) = φ x * φ y
  div : ∀ x y, φ (x / y) = φ x / φ y
  neg : ∀ x, φ (-x) = -φ x
  pow : ∀ x (n : ℕ), φ (x ^ n) = φ x ^ n
  lit : ∀ x, φ (PyNum.lit x) = PyNum.lit x
  sin : ∀ x, φ (PyNum.sin x) = PyNum.sin (φ x)
  cos : ∀ x, φ (PyNum.cos x) = PyNum.cos (φ x)
  sqrt : ∀ x, φ (PyNum.sqrt x) = PyNum.sqrt (φ x)

theorem PyHom.comp {R S T : Type} [PyNum R] [PyNum S] [PyNum T] {φ : R → S} {ψ : S → T}
    (h : PyHom φ) (h' : PyHom ψ) : PyHom fun x => ψ (φ x) where
  add x y := by rw [h.add, h'.add]
  sub x y := by rw [h.sub, h'.sub]
  mul x y := by rw [h.mul, h'.mul]
  div x y := by rw [h.div, h'.div]
  neg x := by rw [h.neg, h'.neg]
  pow x n := by rw [h.pow, h'.pow]
  lit x := by rw [h.lit, h'.lit]
  sin x := by rw [h.sin, h'.sin]
  cos x := by rw [h.cos, h'.cos]
  sqrt x := by rw [h.sqrt, h'.sqrt]

theorem hom_nom : PyHom (UNum.nom : UNum ι → ℝ) := by
  constructor <;> intros <;> rfl

theorem UNum.ext' {u v : UNum ι} (h : u.nom = v.nom) (h' : ∀ i, u.lin i = v.lin i) : u = v := by
  cases u; cases v
  simp only [UNum.mk.injEq]
  exact ⟨h, funext h'⟩

theorem hom_num : PyHom (FloatOrU.num : FloatOrU ι → UNum ι) := by
  constructor
  case add => 
    rintro (x | x) (y | y) <;> first
      | rfl
      | exact UNum.ext' rfl fun i => (show (0 : ℝ) = 0 + 0 by simp)
  case sub => 
    rintro (x | x) (y | y) <;> first
      | rfl
      | exact UNum.ext' rfl fun i => (show (0 : ℝ) = 0 - 0 by simp)
  case mul => 
    rintro (x | x) (y | y) <;> first
      | rfl
      | exact UNum.ext' rfl fun i => (show (0 : ℝ) = 0 * y + x * 0 by simp)
  case div => 
    rintro (x | x) (y | y) <;> first
      | rfl
      | exact UNum.ext' rfl fun i => (show (0 : ℝ) = (0 * y - x * 0) / y ^ 2 by simp)
  case neg =>
    rintro (x | x) <;> first
      | rfl
      | exact UNum.ext' rfl fun i => (show (0 : ℝ) = -0 by simp)
  case pow =>
    rintro (x | x) n <;> first
      | rfl
      | exact UNum.ext' rfl fun i => (show (0 : ℝ) = n * x ^ (n - 1) * 0 by simp)
  case lit => intro x; rfl
  case sin =>
    rintro (x | x) <;> first
      | rfl
      | exact UNum.ext' rfl fun i => (show (0 : ℝ) = Real.cos x * 0 by simp)
  case cos =>
    rintro (x | x) <;> first
      | rfl
      | exact UNum.ext' rfl fun i => (show (0 : ℝ) = -Real.sin x * 0 by simp)
  case sqrt =>
    rintro (x | x) <;> first
      | rfl
      | exact UNum.ext' rfl fun i => (show (0 : ℝ) = 1 / (2 * √x) * 0 by simp)

theorem hom_lift : PyHom (UNum.lift : UNum ι → UNum (Option ι)) := by
  constructor
  case add => 
    refine fun x y => UNum.ext' rfl fun i => ?_
    cases i with
    | none => exact (show (0 : ℝ) = 0 + 0 by simp)
    | some i => rfl
  case sub => 
    refine fun x y => UNum.ext' rfl fun i => ?_
    cases i with
    | none => exact (show (0 : ℝ) = 0 - 0 by simp)
    | some i => rfl
  case mul => 
    refine fun x y => UNum.ext' rfl fun i => ?_
    cases i with
    | none => exact (show (0 : ℝ) = 0 * y.nom + x.nom * 0 by simp)
    | some i => rfl
  case div => 
    refine fun x y => UNum.ext' rfl fun i => ?_
    cases i with
    | none => exact (show (0 : ℝ) = (0 * y.nom - x.nom * 0) / y.nom ^ 2 by simp)
    | some i => rfl
  case neg => 
    refine fun x => UNum.ext' rfl fun i => ?_
    cases i with
    | none => exact (show (0 : ℝ) = -0 by simp)
    | some i => rfl
  case pow => 
    refine fun x n => UNum.ext' rfl fun i => ?_
    cases i with
    | none => exact (show (0 : ℝ) = n * x.nom ^ (n - 1) * 0 by simp)
    | some i => rfl
  case lit => 
    refine fun x => UNum.ext' rfl fun i => ?_
    cases i <;> rfl
  case sin => 
    refine fun x => UNum.ext' rfl fun i => ?_
    cases i with
    | none => exact (show (0 : ℝ) = Real.cos x.nom * 0 by simp)
    | some i => rfl
  case cos => 
    refine fun x => UNum.ext' rfl fun i => ?_
    cases i with
    | none => exact (show (0 : ℝ) = -Real.sin x.nom * 0 by simp)
    | some i => rfl
  case sqrt => 
    refine fun x => UNum.ext' rfl fun i => ?_
    cases i with
    | none => exact (show (0 : ℝ) = 1 / (2 * √x.nom) * 0 by simp)
    | some i => rfl

theorem hom_out : PyHom (FloatOrU.out : FloatOrU ι → UNum (Option ι)) := hom_num.comp hom_lift

/-- `x.nominal_value` for a number with an uncertainty, `x` for a float. -/
noncomputable def Spec.nominalF (x : FloatOrU ι) : ℝ := x.num.nom

theorem hom_nominalF : PyHom (nominalF : FloatOrU ι → ℝ) := hom_num.comp hom_nom

section
variable {R S : Type} [PyNum R] [PyNum S] {φ : R → S} (h : PyHom φ)
include h

theorem PyHom.wheelRadius (d n : R) : φ (wheelRadiusN d n) = wheelRadiusN (φ d) (φ n) := by
  simp only [wheelRadiusN, h.div, h.lit]

theorem PyHom.trail (r l f : R) : φ (trailN r l f).1 = (trailN (φ r) (φ l) (φ f)).1 := by
  simp only [trailN, h.div, h.sub, h.mul, h.sin, h.cos]

theorem PyHom.abc (h1 h2 h3 h4 h5 d1 d2 d3 d4 d : R) :
    abcN (φ h1) (φ h2) (φ h3) (φ h4) (φ h5) (φ d1) (φ d2) (φ d3) (φ d4) (φ d) =
      (φ (abcN h1 h2 h3 h4 h5 d1 d2 d3 d4 d).1, φ (abcN h1 h2 h3 h4 h5 d1 d2 d3 d4 d).2.1,
        φ (abcN h1 h2 h3 h4 h5 d1 d2 d3 d4 d).2.2) := by
  simp only [abcN, h.add, h.sub, h.mul, h.sqrt, h.neg, h.pow, h.lit]

end

/-- A dictionary of measurements reduced to nominal values. -/
noncomputable def Spec.nominalMeasurements (mp : Dict (FloatOrU ι)) : Dict ℝ :=
  mp.map fun e => (e.1, nominalF e.2)

theorem find?_nominalMeasurements (mp : Dict (FloatOrU ι)) (k : String) :
    (nominalMeasurements mp).find? k = (mp.find? k).map nominalF :=
  find?_map_key (fun _ => nominalF) mp k

theorem getD_nominalMeasurements (mp : Dict (FloatOrU ι)) (k : String) :
    (nominalMeasurements mp).getD k 0 = nominalF (mp.getD k (.float 0)) := by
  simp only [Dict.getD, find?_nominalMeasurements]
  cases mp.find? k <;> rfl

theorem has_nominalMeasurements (mp : Dict (FloatOrU ι)) (k : String) :
    (nominalMeasurements mp).has k = mp.has k := by
  simp only [Dict.has, find?_nominalMeasurements, Option.isSome_map]

theorem require_nominalMeasurements (mp : Dict (FloatOrU ι)) (ks : List String) :
    (nominalMeasurements mp).require ks = mp.require ks := by
  induction ks with
  | nil => rfl
  | cons k ks ih =>
    simp only [Dict.require, find?_nominalMeasurements, ih]
    cases mp.find? k <;> rfl

theorem lambda_nominal [Fintype ι] (newton : (ℝ → ℝ) → ℝ → Except PyErr ℝ) (rF rR a b c : FloatOrU ι) :
    (lambdaFromAbcU newton rF rR a b c).map UNum.nom =
        lambdaFromAbc newton (nominalF rF) (nominalF rR) (nominalF a) (nominalF b) (nominalF c) ∨
      lambdaFromAbcU newton rF rR a b c = .error .attributeError := by
  rcases rF with rF | rF
  · exact Or.inr (C123_float_raises _ _ _ _ _ _ (Or.inl ⟨_, rfl⟩))
  rcases rR with rR | rR
  · exact Or.inr (C123_float_raises _ _ _ _ _ _ (Or.inr (Or.inl ⟨_, rfl⟩)))
  rcases a with a | a
  · exact Or.inr (C123_float_raises _ _ _ _ _ _ (Or.inr (Or.inr (Or.inl ⟨_, rfl⟩))))
  rcases b with b | b
  · exact Or.inr (C123_float_raises _ _ _ _ _ _ (Or.inr (Or.inr (Or.inr (Or.inl ⟨_, rfl⟩)))))
  rcases c with c | c
  · exact Or.inr (C123_float_raises _ _ _ _ _ _ (Or.inr (Or.inr (Or.inr (Or.inr ⟨_, rfl⟩)))))
  exact Or.inl (C123_nominal newton rF rR a b c)

theorem frameGeometry_nominal [Fintype ι] (newton : (ℝ → ℝ) → ℝ → Except PyErr ℝ)
    (mp : Dict (FloatOrU ι)) (rF rR : FloatOrU ι) :
    frameGeometry newton (nominalMeasurements mp) (nominalF rF) (nominalF rR) =
        (frameGeometryU newton mp rF rR).map (fun t => (t.1.nom, t.2.1.nom, t.2.2.nom)) ∨
      (frameGeometryU newton mp rF rR = .error .attributeError ∧ mp.has "w" = false) := by
  unfold frameGeometry frameGeometryU
  simp only [has_nominalMeasurements, require_nominalMeasurements, getD_nominalMeasurements]
  cases hw : mp.has "w" with
  | true =>
    refine Or.inl ?_
    simp only [if_true]
    cases mp.require ["gamma", "w", "f"] with
    | error e => rfl
    | ok _ =>
      simp only [Except.map, Except.ok.injEq, Prod.mk.injEq]
      refine ⟨?_, rfl, rfl⟩
      rw [hom_out.mul, hom_out.sub, hom_out.lit, hom_out.lit]
      rfl
  | false =>
    simp only [Bool.false_eq_true, if_false]
    cases mp.require ["h1", "h2", "h3", "h4", "h5", "d1", "d2", "d3", "d4", "d"] with
    | error e => exact Or.inl rfl
    | ok _ =>
      simp only [and_true]
      have habc := hom_nominalF.abc (mp.getD "h1" (.float 0)) (mp.getD "h2" (.float 0))
        (mp.getD "h3" (.float 0)) (mp.getD "h4" (.float 0)) (mp.getD "h5" (.float 0))
        (mp.getD "d1" (.float 0)) (mp.getD "d2" (.float 0)) (mp.getD "d3" (.float 0))
        (mp.getD "d4" (.float 0)) (mp.getD "d" (.float 0))
      have hr : ∀ h1 h2 h3 h4 h5 d1 d2 d3 d4 d : ℝ,
          calculateAbcGeometry h1 h2 h3 h4 h5 d1 d2 d3 d4 d = abcN h1 h2 h3 h4 h5 d1 d2 d3 d4 d :=
        fun _ _ _ _ _ _ _ _ _ _ => rfl
      rw [hr, habc]
      generalize abcN (mp.getD "h1" (.float 0)) (mp.getD "h2" (.float 0))
        (mp.getD "h3" (.float 0)) (mp.getD "h4" (.float 0)) (mp.getD "h5" (.float 0))
        (mp.getD "d1" (.float 0)) (mp.getD "d2" (.float 0)) (mp.getD "d3" (.float 0))
        (mp.getD "d4" (.float 0)) (mp.getD "d" (.float 0)) = abc
      obtain ⟨a, b, c⟩ := abc
      rcases lambda_nominal newton rF rR a b c with h | h
      · refine Or.inl ?_
        simp only [← h]
        cases lambdaFromAbcU newton rF rR a b c with
        | error e => rfl
        | ok l =>
          simp only [Except.map, Except.ok.injEq, Prod.mk.injEq]
          refine ⟨trivial, ?_, rfl⟩
          rw [hom_nom.add, hom_nom.mul, hom_nom.mul, hom_nom.cos, hom_nom.sin, hom_out.add, hom_nom.add]
          rfl
      · rw [h]
        exact Or.inr rfl

/-- **C124.** The nominal values: whenever the call succeeds, they are the geometry of the nominal
measurements; it fails with the same exception as that, except that `AttributeError` is raised in
the absence of a measured wheelbase (see `C124_floats_raise`). -/
theorem C124_nominal [Fintype ι] (newton : (ℝ → ℝ) → ℝ → Except PyErr ℝ) (mp : Dict (FloatOrU ι))
    (par : Dict (UNum (Option ι))) :
    calculateBenchmarkGeometry newton (nominalMeasurements mp) (nominalDict par) =
        (calculateBenchmarkGeometryU newton mp par).map nominalDict ∨
      (calculateBenchmarkGeometryU newton mp par = .error .attributeError ∧ mp.has "w" = false) := by
  unfold calculateBenchmarkGeometry calculateBenchmarkGeometryU
  simp only [require_nominalMeasurements, getD_nominalMeasurements]
  cases mp.require ["dF", "nF", "dR", "nR"] with
  | error e => exact Or.inl rfl
  | ok _ =>
    simp only []
    have hw : ∀ d n : FloatOrU ι, wheelRadius (nominalF d) (nominalF n) = nominalF (wheelRadiusN d n) :=
      fun d n => (hom_nominalF.wheelRadius d n).symm
    rw [hw, hw]
    generalize wheelRadiusN (mp.getD "dF" (.float 0)) (mp.getD "nF" (.float 0)) = rF
    generalize wheelRadiusN (mp.getD "dR" (.float 0)) (mp.getD "nR" (.float 0)) = rR
    rcases frameGeometry_nominal newton mp rF rR with h | ⟨h, hf⟩
    · refine Or.inl ?_
      rw [h]
      cases frameGeometryU newton mp rF rR with
      | error e => rfl
      | ok t =>
        obtain ⟨lam, w, fo⟩ := t
        simp only [Except.map, Except.ok.injEq]
        have ht : trail (nominalF rF) lam.nom fo.nom = ((trailN rF.out lam fo).1.nom, 
            (trailN rF.out lam fo).2.nom) := rfl
        rw [ht]
        have hl : ∀ p : Dict (UNum (Option ι)), transferLateral (nominalMeasurements mp) (nominalDict p) =
            nominalDict (transferLateralU mp p) := by
          intro p
          unfold transferLateral transferLateralU
          simp only [find?_nominalMeasurements]
          cases mp.find? "xcl" with
          | none => rfl
          | some x =>
            cases mp.find? "zcl" with
            | none => simp only [Option.map_some, Option.map_none, set_nominalDict]; rfl
            | some z => simp only [Option.map_some, set_nominalDict]; rfl
        rw [← hl]
        simp only [set_nominalDict]
        rfl
    · rw [h]
      exact Or.inr ⟨rfl, hf⟩

/-! ## Plain floats -/

/-- Has an uncertainty attached. -/
def Spec.isU : FloatOrU ι → Bool
  | .float _ => false
  | .u _ => true

theorem isU_add (x y : FloatOrU ι) : isU (x + y) = (isU x || isU y) := by cases x <;> cases y <;> rfl
theorem isU_sub (x y : FloatOrU ι) : isU (x - y) = (isU x || isU y) := by cases x <;> cases y <;> rfl
theorem isU_mul (x y : FloatOrU ι) : isU (x * y) = (isU x || isU y) := by cases x <;> cases y <;> rfl
theorem isU_div (x y : FloatOrU ι) : isU (x / y) = (isU x || isU y) := by cases x <;> cases y <;> rfl
theorem isU_neg (x : FloatOrU ι) : isU (-x) = isU x := by cases x <;> rfl
theorem isU_pow (x : FloatOrU ι) (n : ℕ) : isU (x ^ n) = isU x := by cases x <;> rfl
theorem isU_sqrt (x : FloatOrU ι) : isU (PyNum.sqrt x) = isU x := by cases x <;> rfl
theorem isU_lit (x : ℝ) : isU (PyNum.lit x : FloatOrU ι) = false := rfl

theorem lambda_attribute_iff [Fintype ι] (newton : (ℝ → ℝ) → ℝ → Except PyErr ℝ)
    (hnewton : ∀ f x, newton f x ≠ .error .attributeError) (rF rR a b c : FloatOrU ι) :
    lambdaFromAbcU newton rF rR a b c = .error .attributeError ↔
      (isU rF && isU rR && isU a && isU b && isU c) = false := by
  constructor
  · intro h
    by_contra hc
    rcases rF with rF | rF <;> rcases rR with rR | rR <;> rcases a with a | a <;>
      rcases b with b | b <;> rcases c with c | c <;> simp [isU] at hc
    have := C123_nominal newton rF rR a b c
    rw [h] at this
    exact hnewton _ _ this.symm
  · intro h
    apply C123_float_raises
    rcases rF with rF | rF <;> rcases rR with rR | rR <;> rcases a with a | a <;>
      rcases b with b | b <;> rcases c with c | c <;> simp [isU] at h ⊢

/-- The groups of measurements that enter one argument of `lambda_from_abc` each. -/
def Spec.tiltGroups : List (List String) :=
  [["dF", "nF"], ["dR", "nR"], ["h1", "h2", "h3", "d1", "d2"], ["h4", "h5", "d3", "d4"]]

/-- **C124.** Without a measured wheelbase the call raises `AttributeError` exactly if the
measurements of one group are all given without uncertainties. -/
theorem C124_floats_raise [Fintype ι] (newton : (ℝ → ℝ) → ℝ → Except PyErr ℝ)
    (hnewton : ∀ f x, newton f x ≠ .error .attributeError) (mp : Dict (FloatOrU ι))
    (par : Dict (UNum (Option ι))) (hw : mp.has "w" = false)
    (hk : ∀ k ∈ ["dF", "nF", "dR", "nR", "h1", "h2", "h3", "h4", "h5", "d1", "d2", "d3", "d4", "d"],
      mp.has k = true) :
    calculateBenchmarkGeometryU newton mp par = .error .attributeError ↔
      ∃ group ∈ tiltGroups, ∀ k ∈ group, ∃ x, mp.find? k = some (.float x) := by
  have r1 : mp.require ["dF", "nF", "dR", "nR"] = .ok () :=
    (Dict.require_ok_iff _ _).2 fun k h => hk k (by
      simp only [List.mem_cons, List.not_mem_nil, or_false] at h ⊢; tauto)
  have r2 : mp.require ["h1", "h2", "h3", "h4", "h5", "d1", "d2", "d3", "d4", "d"] = .ok () :=
    (Dict.require_ok_iff _ _).2 fun k h => hk k (by
      simp only [List.mem_cons, List.not_mem_nil, or_false] at h ⊢; tauto)
  have hfl : ∀ k ∈ ["dF", "nF", "dR", "nR", "h1", "h2", "h3", "h4", "h5", "d1", "d2", "d3", "d4", "d"],
      ((∃ x, mp.find? k = some (.float x)) ↔ isU (mp.getD k (.float 0)) = false) := by
    intro k h
    obtain ⟨y, hy⟩ := (Dict.has_iff_exists _ _).1 (hk k h)
    rw [Dict.getD, hy]
    cases y <;> simp [isU]
  have hrhs : (∃ group ∈ tiltGroups, ∀ k ∈ group, ∃ x, mp.find? k = some (.float x)) ↔
      ∃ group ∈ tiltGroups, ∀ k ∈ group, isU (mp.getD k (.float 0)) = false := by
    refine exists_congr fun g => and_congr_right fun hg => forall_congr' fun k => ?_
    refine forall_congr' fun hkg => hfl k ?_
    simp only [tiltGroups, List.mem_cons, List.not_mem_nil, or_false] at hg
    rcases hg with rfl | rfl | rfl | rfl <;>
      (simp only [List.mem_cons, List.not_mem_nil, or_false] at hkg ⊢; tauto)
  rw [hrhs]
  unfold calculateBenchmarkGeometryU frameGeometryU
  simp only [r1, r2, hw, Bool.false_eq_true, if_false]
  rcases habc : abcN (mp.getD "h1" (.float 0)) (mp.getD "h2" (.float 0))
        (mp.getD "h3" (.float 0)) (mp.getD "h4" (.float 0)) (mp.getD "h5" (.float 0))
        (mp.getD "d1" (.float 0)) (mp.getD "d2" (.float 0)) (mp.getD "d3" (.float 0))
        (mp.getD "d4" (.float 0)) (mp.getD "d" (.float 0)) with ⟨a, b, c⟩
  simp only []
  have hL := lambda_attribute_iff newton hnewton
    (wheelRadiusN (mp.getD "dF" (.float 0)) (mp.getD "nF" (.float 0)))
    (wheelRadiusN (mp.getD "dR" (.float 0)) (mp.getD "nR" (.float 0))) a b c
  have hlhs : (match (match lambdaFromAbcU newton
        (wheelRadiusN (mp.getD "dF" (.float 0)) (mp.getD "nF" (.float 0)))
        (wheelRadiusN (mp.getD "dR" (.float 0)) (mp.getD "nR" (.float 0))) a b c with
      | .error e => (.error e : Except PyErr (UNum (Option ι) × UNum (Option ι) × UNum (Option ι)))
      | .ok lam => .ok (lam, (a + b).out * PyNum.cos lam + c.out * PyNum.sin lam, b.out)) with
      | .error e => (.error e : Except PyErr (Dict (UNum (Option ι))))
      | .ok (lam, w, fo) => .ok (transferLateralU mp ((((((par.set "rF"
          (wheelRadiusN (mp.getD "dF" (.float 0)) (mp.getD "nF" (.float 0))).out).set "rR"
          (wheelRadiusN (mp.getD "dR" (.float 0)) (mp.getD "nR" (.float 0))).out)).set "lam" lam).set
          "w" w).set "c" (trailN (wheelRadiusN (mp.getD "dF" (.float 0))
          (mp.getD "nF" (.float 0))).out lam fo).1))) = .error .attributeError ↔
      lambdaFromAbcU newton
        (wheelRadiusN (mp.getD "dF" (.float 0)) (mp.getD "nF" (.float 0)))
        (wheelRadiusN (mp.getD "dR" (.float 0)) (mp.getD "nR" (.float 0))) a b c =
          .error .attributeError := by
    cases lambdaFromAbcU newton
        (wheelRadiusN (mp.getD "dF" (.float 0)) (mp.getD "nF" (.float 0)))
        (wheelRadiusN (mp.getD "dR" (.float 0)) (mp.getD "nR" (.float 0))) a b c <;> simp
  refine hlhs.trans (hL.trans ?_)
  have ha : a = (mp.getD "h1" (.float 0)) + (mp.getD "h2" (.float 0)) - (mp.getD "h3" (.float 0)) +
      PyNum.lit 0.5 * (mp.getD "d1" (.float 0)) - PyNum.lit 0.5 * (mp.getD "d2" (.float 0)) :=
    (congrArg Prod.fst habc).symm
  have hb : b = (mp.getD "h4" (.float 0)) - PyNum.lit 0.5 * (mp.getD "d3" (.float 0)) -
      (mp.getD "h5" (.float 0)) + PyNum.lit 0.5 * (mp.getD "d4" (.float 0)) :=
    (congrArg (fun t => t.2.1) habc).symm
  have hc : ∃ y : FloatOrU ι, c = PyNum.sqrt (-(a - b) ^ 2 + y) := by
    refine ⟨((mp.getD "d" (.float 0)) + PyNum.lit 0.5 * ((mp.getD "d2" (.float 0)) +
      (mp.getD "d3" (.float 0)))) ^ 2, ?_⟩
    rw [ha, hb]
    exact (congrArg (fun t => t.2.2) habc).symm
  obtain ⟨y, hc⟩ := hc
  have hcU : isU c = (isU a || isU b || isU y) := by
    rw [hc, isU_sqrt, isU_add, isU_neg, isU_pow, isU_sub]
  have haU : isU a = false ↔ ∀ k ∈ ["h1", "h2", "h3", "d1", "d2"],
      isU (mp.getD k (.float 0)) = false := by
    rw [ha]
    simp only [isU_add, isU_sub, isU_mul, isU_lit, Bool.false_or, Bool.or_eq_false_iff,
      List.mem_cons, List.not_mem_nil, or_false, forall_eq_or_imp, forall_eq]
    tauto
  have hbU : isU b = false ↔ ∀ k ∈ ["h4", "h5", "d3", "d4"],
      isU (mp.getD k (.float 0)) = false := by
    rw [hb]
    simp only [isU_add, isU_sub, isU_mul, isU_lit, Bool.false_or, Bool.or_eq_false_iff,
      List.mem_cons, List.not_mem_nil, or_false, forall_eq_or_imp, forall_eq]
    tauto
  have hFU : ∀ d n : String, isU (wheelRadiusN (mp.getD d (.float 0)) (mp.getD n (.float 0))) = false ↔
      ∀ k ∈ [d, n], isU (mp.getD k (.float 0)) = false := by
    intro d n
    simp only [wheelRadiusN, isU_div, isU_lit, Bool.or_false, Bool.or_eq_false_iff,
      List.mem_cons, List.not_mem_nil, or_false, forall_eq_or_imp, forall_eq]
  rw [hcU]
  simp only [tiltGroups, List.mem_cons (a := (_ : List String)), exists_eq_or_imp, exists_eq_left,
    List.not_mem_nil, or_false, ← haU, ← hbU, ← hFU]
  generalize isU a = A
  generalize isU b = B
  generalize isU y = Y
  generalize isU (wheelRadiusN (mp.getD "dF" (.float 0)) (mp.getD "nF" (.float 0))) = x1
  generalize isU (wheelRadiusN (mp.getD "dR" (.float 0)) (mp.getD "nR" (.float 0))) = x2
  revert A B Y x1 x2
  decide

/-! ## First-order propagation -/

section propagation
variable [DecidableEq ι]

/-- The presence of the new variable, on which the quantity does not depend. -/
theorem Spec.Tracks.lift {f : (ι → ℝ) → ℝ} {u : UNum ι} (h : Tracks f u) :
    Tracks (fun z : Option ι → ℝ => f fun i => z (some i)) u.lift := by
  refine ⟨h.1, fun i => ?_⟩
  cases i with
  | none =>
    have e : (fun t : ℝ => f fun i => (Pi.single (none : Option ι) t : Option ι → ℝ) (some i)) =
        fun _ => f 0 := by
      funext t
      congr 1
    rw [e]
    exact hasDerivAt_const _ _
  | some j =>
    have e : (fun t : ℝ => f fun i => (Pi.single (some j) t : Option ι → ℝ) (some i)) =
        fun t => f (Pi.single j t) := by
      funext t
      congr 1
      funext i
      by_cases hij : i = j
      · subst hij; simp
      · rw [Pi.single_eq_of_ne hij, Pi.single_eq_of_ne (by simpa using hij)]
    rw [e]
    exact h.2 j

/-- The measurements when the quantity under each key `k` has the value `F k z`. -/
def Spec.measurementsAt (F : String → (ι → ℝ) → ℝ) (mp : Dict (FloatOrU ι)) (z : ι → ℝ) : Dict ℝ :=
  mp.map fun e => (e.1, F e.1 z)

omit [DecidableEq ι] in
theorem find?_measurementsAt (F : String → (ι → ℝ) → ℝ) (mp : Dict (FloatOrU ι)) (z : ι → ℝ)
    (k : String) : (measurementsAt F mp z).find? k = (mp.find? k).map fun _ => F k z :=
  find?_map_key (fun k _ => F k z) mp k

/-- **C124, the part that holds in general.** With a measured wheelbase every value of the geometry
represents, to first order, the value computed from the true measurements. -/
theorem C124_measured_wheelbase_partial [Fintype ι] (newton : (ℝ → ℝ) → ℝ → Except PyErr ℝ)
    (mp : Dict (FloatOrU ι)) (F : String → (ι → ℝ) → ℝ)
    (hF : ∀ k ∈ ["dF", "nF", "dR", "nR", "gamma", "w", "f"],
      ∃ x, mp.find? k = some x ∧ Tracks (F k) x.num)
    (hnF : F "nF" 0 ≠ 0) (hnR : F "nR" 0 ≠ 0) (hcos : Real.cos (Real.pi / 180 * (90 - F "gamma" 0)) ≠ 0)
    (par : Dict (UNum (Option ι))) (par' : Dict ℝ) :
    ∃ d, ∃ d' : (ι → ℝ) → Dict ℝ, calculateBenchmarkGeometryU newton mp par = .ok d ∧
      (∀ z, calculateBenchmarkGeometry newton (measurementsAt F mp z) par' = .ok (d' z)) ∧
      ∀ k ∈ ["rF", "rR", "lam", "w", "c"], ∃ u, ∃ f : (ι → ℝ) → ℝ, d.find? k = some u ∧
        (∀ z, (d' z).find? k = some (f z)) ∧
        Tracks (fun z : Option ι → ℝ => f fun i => z (some i)) u := by
  have hv : ∀ k ∈ ["dF", "nF", "dR", "nR", "gamma", "w", "f"],
      Tracks (F k) (mp.getD k (.float 0)).num := by
    intro k hk
    obtain ⟨x, hx, hT⟩ := hF k hk
    rwa [Dict.getD, hx]
  have hhas : ∀ k ∈ ["dF", "nF", "dR", "nR", "gamma", "w", "f"], mp.has k = true := by
    intro k hk
    obtain ⟨x, hx, hT⟩ := hF k hk
    simp [Dict.has, hx]
  have hhz : ∀ z, ∀ k ∈ ["dF", "nF", "dR", "nR", "gamma", "w", "f"],
      (measurementsAt F mp z).has k = true := by
    intro z k hk
    obtain ⟨x, hx, hT⟩ := hF k hk
    simp [Dict.has, find?_measurementsAt, hx]
  have hgz : ∀ z, ∀ k ∈ ["dF", "nF", "dR", "nR", "gamma", "w", "f"],
      (measurementsAt F mp z).getD k 0 = F k z := by
    intro z k hk
    obtain ⟨x, hx, hT⟩ := hF k hk
    simp [Dict.getD, find?_measurementsAt, hx]
  have r1 : mp.require ["dF", "nF", "dR", "nR"] = .ok () :=
    (Dict.require_ok_iff _ _).2 fun k h => hhas k (by
      simp only [List.mem_cons, List.not_mem_nil, or_false] at h ⊢; tauto)
  have r2 : mp.require ["gamma", "w", "f"] = .ok () :=
    (Dict.require_ok_iff _ _).2 fun k h => hhas k (by
      simp only [List.mem_cons, List.not_mem_nil, or_false] at h ⊢; tauto)
  have z1 : ∀ z, (measurementsAt F mp z).require ["dF", "nF", "dR", "nR"] = .ok () := fun z =>
    (Dict.require_ok_iff _ _).2 fun k h => hhz z k (by
      simp only [List.mem_cons, List.not_mem_nil, or_false] at h ⊢; tauto)
  have z2 : ∀ z, (measurementsAt F mp z).require ["gamma", "w", "f"] = .ok () := fun z =>
    (Dict.require_ok_iff _ _).2 fun k h => hhz z k (by
      simp only [List.mem_cons, List.not_mem_nil, or_false] at h ⊢; tauto)
  have hwU : calculateBenchmarkGeometryU newton mp par = .ok (transferLateralU mp
      (((((par.set "rF" (wheelRadiusN (mp.getD "dF" (.float 0)) (mp.getD "nF" (.float 0))).out).set "rR"
        (wheelRadiusN (mp.getD "dR" (.float 0)) (mp.getD "nR" (.float 0))).out).set "lam"
        (PyNum.lit (Real.pi / 180) * (PyNum.lit 90 - mp.getD "gamma" (.float 0)) : FloatOrU ι).out).set "w"
        (mp.getD "w" (.float 0)).out).set "c"
        (trailN (wheelRadiusN (mp.getD "dF" (.float 0)) (mp.getD "nF" (.float 0))).out
          (PyNum.lit (Real.pi / 180) * (PyNum.lit 90 - mp.getD "gamma" (.float 0)) : FloatOrU ι).out
          (mp.getD "f" (.float 0)).out).1)) := by
    unfold calculateBenchmarkGeometryU frameGeometryU
    simp only [r1, r2, hhas "w" (by simp), if_true]
  have hwz : ∀ z, calculateBenchmarkGeometry newton (measurementsAt F mp z) par' =
      .ok (transferLateral (measurementsAt F mp z)
      (((((par'.set "rF" (wheelRadius (F "dF" z) (F "nF" z))).set "rR"
        (wheelRadius (F "dR" z) (F "nR" z))).set "lam" (Real.pi / 180 * (90 - F "gamma" z))).set "w"
        (F "w" z)).set "c"
        (trail (wheelRadius (F "dF" z) (F "nF" z)) (Real.pi / 180 * (90 - F "gamma" z)) (F "f" z)).1)) := by
    intro z
    unfold calculateBenchmarkGeometry frameGeometry
    simp only [z1, z2, hhz z "w" (by simp), if_true]
    rw [hgz z "dF" (by simp), hgz z "nF" (by simp), hgz z "dR" (by simp), hgz z "nR" (by simp),
      hgz z "gamma" (by simp), hgz z "w" (by simp), hgz z "f" (by simp)]
  refine ⟨_, _, hwU, hwz, ?_⟩
  have hlU : ∀ (p : Dict (UNum (Option ι))) k, k ≠ "xcl" → k ≠ "zcl" →
      (transferLateralU mp p).find? k = p.find? k := by
    intro p k h1 h2
    unfold transferLateralU
    cases mp.find? "xcl" with
    | none => rfl
    | some x =>
      cases mp.find? "zcl" with
      | none => exact Dict.find?_set_of_ne _ _ h1.symm
      | some z => rw [Dict.find?_set_of_ne _ _ h2.symm, Dict.find?_set_of_ne _ _ h1.symm]
  have hlz : ∀ (q p : Dict ℝ) k, k ≠ "xcl" → k ≠ "zcl" →
      (transferLateral q p).find? k = p.find? k := by
    intro q p k h1 h2
    unfold transferLateral
    cases q.find? "xcl" with
    | none => rfl
    | some x =>
      cases q.find? "zcl" with
      | none => exact Dict.find?_set_of_ne _ _ h1.symm
      | some z => rw [Dict.find?_set_of_ne _ _ h2.symm, Dict.find?_set_of_ne _ _ h1.symm]
  have h0 : ∀ k ∈ ["dF", "nF", "dR", "nR", "gamma", "w", "f"],
      F k 0 = (mp.getD k (.float 0)).num.nom := fun k hk => (hv k hk).1
  have hrad : ∀ d n, d ∈ ["dF", "nF", "dR", "nR", "gamma", "w", "f"] →
      n ∈ ["dF", "nF", "dR", "nR", "gamma", "w", "f"] → F n 0 ≠ 0 →
      Tracks (fun z => wheelRadius (F d z) (F n z))
        (wheelRadiusN (mp.getD d (.float 0)) (mp.getD n (.float 0))).num := by
    intro d n hd hn hne
    rw [hom_num.wheelRadius]
    refine (((hv d hd).div (Tracks.lit 2) ?_).div (Tracks.lit Real.pi) ?_).div (hv n hn) ?_
    · show (2 : ℝ) ≠ 0
      norm_num
    · exact Real.pi_ne_zero
    · rw [← h0 n hn]; exact hne
  have hlam : Tracks (fun z => Real.pi / 180 * (90 - F "gamma" z))
      (PyNum.lit (Real.pi / 180) * (PyNum.lit 90 - mp.getD "gamma" (.float 0)) : FloatOrU ι).num := by
    rw [hom_num.mul, hom_num.sub, hom_num.lit, hom_num.lit]
    exact (Tracks.lit _).mul ((Tracks.lit _).sub (hv "gamma" (by simp)))
  have htr : Tracks (fun z => (trail (wheelRadius (F "dF" z) (F "nF" z))
        (Real.pi / 180 * (90 - F "gamma" z)) (F "f" z)).1)
      (trailN (wheelRadiusN (mp.getD "dF" (.float 0)) (mp.getD "nF" (.float 0))).num
        (PyNum.lit (Real.pi / 180) * (PyNum.lit 90 - mp.getD "gamma" (.float 0)) : FloatOrU ι).num
        (mp.getD "f" (.float 0)).num).1 := by
    refine (((hrad "dF" "nF" (by simp) (by simp) hnF).mul hlam.sin).sub (hv "f" (by simp))).div
      hlam.cos ?_
    rw [← hlam.cos.1]
    exact hcos
  intro k hk
  have hx : k ≠ "xcl" ∧ k ≠ "zcl" := by
    constructor <;> (rintro rfl; simp at hk)
  simp only [List.mem_cons, List.not_mem_nil, or_false] at hk
  simp only [hlU _ _ hx.1 hx.2, hlz _ _ _ hx.1 hx.2]
  rcases hk with rfl | rfl | rfl | rfl | rfl
  · exact ⟨(wheelRadiusN (mp.getD "dF" (.float 0)) (mp.getD "nF" (.float 0))).out,
      fun z => wheelRadius (F "dF" z) (F "nF" z), by simp [Dict.find?_set],
      fun z => by simp [Dict.find?_set], (hrad "dF" "nF" (by simp) (by simp) hnF).lift⟩
  · exact ⟨(wheelRadiusN (mp.getD "dR" (.float 0)) (mp.getD "nR" (.float 0))).out,
      fun z => wheelRadius (F "dR" z) (F "nR" z), by simp [Dict.find?_set],
      fun z => by simp [Dict.find?_set], (hrad "dR" "nR" (by simp) (by simp) hnR).lift⟩
  · exact ⟨(PyNum.lit (Real.pi / 180) * (PyNum.lit 90 - mp.getD "gamma" (.float 0)) :
      FloatOrU ι).out, fun z => Real.pi / 180 * (90 - F "gamma" z), by simp [Dict.find?_set],
      fun z => by simp [Dict.find?_set], hlam.lift⟩
  · exact ⟨(mp.getD "w" (.float 0)).out, fun z => F "w" z, by simp [Dict.find?_set],
      fun z => by simp [Dict.find?_set], (hv "w" (by simp)).lift⟩
  · refine ⟨_, fun z => (trail (wheelRadius (F "dF" z) (F "nF" z))
        (Real.pi / 180 * (90 - F "gamma" z)) (F "f" z)).1, Dict.find?_set_self _ _ _,
      fun z => Dict.find?_set_self _ _ _, ?_⟩
    have := htr.lift
    rw [hom_lift.trail] at this
    exact this

end propagation

/-! ## Without a measured wheelbase -/

namespace UNum
variable (u v : UNum ι) (i : ι)
theorem nom_add : (u + v).nom = u.nom + v.nom := rfl
theorem nom_sub : (u - v).nom = u.nom - v.nom := rfl
theorem nom_mul : (u * v).nom = u.nom * v.nom := rfl
theorem nom_div : (u / v).nom = u.nom / v.nom := rfl
theorem nom_neg : (-u).nom = -u.nom := rfl
theorem nom_pow (n : ℕ) : (u ^ n).nom = u.nom ^ n := rfl
theorem nom_lit (x : ℝ) : (PyNum.lit x : UNum ι).nom = x := rfl
theorem nom_sin : (PyNum.sin u).nom = Real.sin u.nom := rfl
theorem nom_cos : (PyNum.cos u).nom = Real.cos u.nom := rfl
theorem nom_sqrt : (PyNum.sqrt u).nom = √u.nom := rfl
theorem nom_atan : (PyNum.atan u).nom = Real.arctan u.nom := rfl
theorem lin_add : (u + v).lin i = u.lin i + v.lin i := rfl
theorem lin_sub : (u - v).lin i = u.lin i - v.lin i := rfl
theorem lin_mul : (u * v).lin i = u.lin i * v.nom + u.nom * v.lin i := rfl
theorem lin_div : (u / v).lin i = (u.lin i * v.nom - u.nom * v.lin i) / v.nom ^ 2 := rfl
theorem lin_neg : (-u).lin i = -u.lin i := rfl
theorem lin_pow (n : ℕ) : (u ^ n).lin i = n * u.nom ^ (n - 1) * u.lin i := rfl
theorem lin_lit (x : ℝ) : (PyNum.lit x : UNum ι).lin i = 0 := rfl
theorem lin_sin : (PyNum.sin u).lin i = Real.cos u.nom * u.lin i := rfl
theorem lin_cos : (PyNum.cos u).lin i = -Real.sin u.nom * u.lin i := rfl
theorem lin_sqrt : (PyNum.sqrt u).lin i = 1 / (2 * √u.nom) * u.lin i := rfl
theorem lin_atan : (PyNum.atan u).lin i = 1 / (1 + u.nom ^ 2) * u.lin i := rfl
theorem nom_lift : u.lift.nom = u.nom := rfl
theorem lin_lift_some : u.lift.lin (some i) = u.lin i := rfl
theorem lin_lift_none : u.lift.lin none = 0 := rfl
end UNum

/-- The values under the keys that enter the five arguments of `lambda_from_abc`. -/
noncomputable def Spec.tiltArguments (mp : Dict (FloatOrU ι)) :
    FloatOrU ι × FloatOrU ι × FloatOrU ι × FloatOrU ι × FloatOrU ι :=
  let v := fun k => Dict.getD mp k (.float 0)
  (wheelRadiusN (v "dF") (v "nF"), wheelRadiusN (v "dR") (v "nR"),
    abcN (v "h1") (v "h2") (v "h3") (v "h4") (v "h5") (v "d1") (v "d2") (v "d3") (v "d4") (v "d"))

theorem geometryU_abc [Fintype ι] (newton : (ℝ → ℝ) → ℝ → Except PyErr ℝ) (mp : Dict (FloatOrU ι))
    (par : Dict (UNum (Option ι))) (hw : mp.has "w" = false) {rF rR a b c : FloatOrU ι}
    (ht : tiltArguments mp = (rF, rR, a, b, c)) {d : Dict (UNum (Option ι))}
    (hd : calculateBenchmarkGeometryU newton mp par = .ok d) :
    ∃ lam, lambdaFromAbcU newton rF rR a b c = .ok lam ∧ d.find? "lam" = some lam ∧
      d.find? "w" = some ((a + b).out * PyNum.cos lam + c.out * PyNum.sin lam) ∧
      d.find? "c" = some (trailN rF.out lam b.out).1 := by
  unfold calculateBenchmarkGeometryU frameGeometryU at hd
  cases h1 : mp.require ["dF", "nF", "dR", "nR"] with
  | error e => simp only [h1] at hd; cases hd
  | ok _ =>
    cases h2 : mp.require ["h1", "h2", "h3", "h4", "h5", "d1", "d2", "d3", "d4", "d"] with
    | error e => simp only [h1, h2, hw, Bool.false_eq_true, if_false] at hd; cases hd
    | ok _ =>
      simp only [h1, h2, hw, Bool.false_eq_true, if_false] at hd
      simp only [tiltArguments, Prod.mk.injEq] at ht
      obtain ⟨e1, e2, e3⟩ := ht
      rw [e1, e2, e3] at hd
      simp only [] at hd
      cases hl : lambdaFromAbcU newton rF rR a b c with
      | error e => simp only [hl] at hd; cases hd
      | ok lam =>
        simp only [hl, Except.ok.injEq] at hd
        refine ⟨lam, rfl, ?_⟩
        have hlU : ∀ (p : Dict (UNum (Option ι))) k, k ≠ "xcl" → k ≠ "zcl" →
            (transferLateralU mp p).find? k = p.find? k := by
          intro p k h1 h2
          unfold transferLateralU
          cases mp.find? "xcl" with
          | none => rfl
          | some x =>
            cases mp.find? "zcl" with
            | none => exact Dict.find?_set_of_ne _ _ h1.symm
            | some z => rw [Dict.find?_set_of_ne _ _ h2.symm, Dict.find?_set_of_ne _ _ h1.symm]
        rw [← hd]
        refine ⟨?_, ?_, ?_⟩ <;> rw [hlU _ _ (by decide) (by decide)] <;> simp [Dict.find?_set]

theorem geometryU_ok [Fintype ι] (newton : (ℝ → ℝ) → ℝ → Except PyErr ℝ) (mp : Dict (FloatOrU ι))
    (par : Dict (UNum (Option ι))) (hw : mp.has "w" = false)
    (h1 : mp.require ["dF", "nF", "dR", "nR"] = .ok ())
    (h2 : mp.require ["h1", "h2", "h3", "h4", "h5", "d1", "d2", "d3", "d4", "d"] = .ok ())
    {rF rR a b c : FloatOrU ι} (ht : tiltArguments mp = (rF, rR, a, b, c)) {lam : UNum (Option ι)}
    (hl : lambdaFromAbcU newton rF rR a b c = .ok lam) :
    ∃ d, calculateBenchmarkGeometryU newton mp par = .ok d := by
  unfold calculateBenchmarkGeometryU frameGeometryU
  simp only [h1, h2, hw, Bool.false_eq_true, if_false]
  simp only [tiltArguments, Prod.mk.injEq] at ht
  obtain ⟨e1, e2, e3⟩ := ht
  rw [e1, e2, e3]
  simp only [hl]
  exact ⟨_, rfl⟩

/-- **C124, another part that holds.** Without a measured wheelbase, for wheels of equal nominal
radius, the computed wheelbase has the correct standard deviation, although the tilt that enters has
not. -/
theorem C124_wheelbase_equal_radii_partial [DecidableEq ι] [Fintype ι]
    (newton : (ℝ → ℝ) → ℝ → Except PyErr ℝ) (mp : Dict (FloatOrU ι))
    (par : Dict (UNum (Option ι))) (hw : mp.has "w" = false) {rF rR a b c l : UNum ι}
    (ht : tiltArguments mp = (.u rF, .u rR, .u a, .u b, .u c))
    {FrF FrR Fa Fb Fc L : (ι → ℝ) → ℝ} (h : TrueTilt rF rR a b c l FrF FrR Fa Fb Fc L)
    (hab : a.nom + b.nom ≠ 0) (hr : rF.nom = rR.nom)
    {d : Dict (UNum (Option ι))} (hd : calculateBenchmarkGeometryU newton mp par = .ok d)
    {lam : UNum (Option ι)} (hlam : d.find? "lam" = some lam) (hnom : lam.nom = l.nom) :
    ∃ u t, d.find? "w" = some u ∧
      Tracks (fun z => (Fa z + Fb z) * Real.cos (L z) + Fc z * Real.sin (L z)) t ∧
      u.nom = t.nom ∧ u.std = t.std := by
  obtain ⟨lam', h1, h2, h3, -⟩ := geometryU_abc newton mp par hw ht hd
  obtain rfl : lam = lam' := by rw [hlam] at h2; exact Option.some.inj h2
  refine ⟨_, _, h3, ((h.a.add h.b).mul h.l.cos).add (h.c.mul h.l.sin), ?_, ?_⟩
  · rw [UNum.nom_add, UNum.nom_mul, UNum.nom_cos, hnom, UNum.nom_mul, UNum.nom_sin, hnom]
    rfl
  · have hl0 := (C123_std newton rF rR a b c lam hab h1).1
    unfold UNum.std
    rw [Fintype.sum_option]
    rcases isEmpty_or_nonempty ι with hι | ⟨⟨i₀⟩⟩
    · have hn : lam.lin none = 0 := by
        obtain ⟨e, -⟩ := lambda_ok h1
        rw [e]
        show UNum.std _ = 0
        simp [UNum.std]
      simp [UNum.lin_add, UNum.lin_mul, UNum.lin_cos, UNum.lin_sin, hn, FloatOrU.out, FloatOrU.num,
        hom_num.add, hom_lift.add, UNum.lin_lift_none]
    · have heq : (a.nom + b.nom) * Real.sin l.nom = c.nom * Real.cos l.nom := by
        have := (h.solves i₀).self_of_nhds
        rw [Tracks.at_zero h.l, Tracks.at_zero h.rF, Tracks.at_zero h.rR, Tracks.at_zero h.a,
          Tracks.at_zero h.b, Tracks.at_zero h.c, lamEquality_zero_iff _ _ _ _ _ _ hab, hr] at this
        linarith
      have hnone : ((FloatOrU.u a + FloatOrU.u b : FloatOrU ι).out * PyNum.cos lam +
          (FloatOrU.u c).out * PyNum.sin lam).lin none = 0 := by
        rw [hom_out.add]
        simp only [FloatOrU.out, FloatOrU.num, UNum.lin_add, UNum.lin_mul, UNum.lin_cos, UNum.lin_sin,
          UNum.nom_add, UNum.lin_lift_none, UNum.nom_lift, hnom]
        linear_combination (-lam.lin none) * heq
      rw [hnone]
      simp only [ne_eq, OfNat.ofNat_ne_zero, not_false_eq_true, zero_pow, zero_add]
      congr 1
      refine Finset.sum_congr rfl fun i _ => ?_
      congr 1
      rw [hom_out.add]
      simp only [FloatOrU.out, FloatOrU.num, UNum.lin_add, UNum.lin_mul, UNum.lin_cos, UNum.lin_sin,
        UNum.nom_add, UNum.nom_cos, UNum.nom_sin, UNum.lin_lift_some, UNum.nom_lift, hnom, hl0]
      linear_combination (l.lin i) * heq

/-! ## The trail -/

/-- A measured value that is known exactly. -/
def exactU (x : ℝ) : FloatOrU Unit := .u ⟨x, fun _ => 0⟩

/-- A bicycle whose measurements are known exactly, but for the height `h4`. -/
noncomputable def trailMeasurements : Dict (FloatOrU Unit) :=
  [("dF", exactU (2 * Real.pi / 3)), ("nF", exactU 1), ("dR", exactU (2 * Real.pi / 3)), ("nR", exactU 1),
   ("h1", exactU (2 / 5)), ("h2", exactU 0), ("h3", exactU 0), ("h4", .u ⟨2 / 5, fun _ => 1 / 100⟩),
   ("h5", exactU 0), ("d1", exactU 0), ("d2", exactU 0), ("d3", exactU 0), ("d4", exactU 0),
   ("d", exactU (3 / 5))]

/-- The true values of the measurements, when `h4` deviates by `z` standard deviations. -/
noncomputable def trailValues (k : String) (z : Unit → ℝ) : ℝ :=
  if k = "h4" then 2 / 5 + 1 / 100 * z () else nominalF (trailMeasurements.getD k (.float 0))

/-- A root finder that accepts exact guesses. -/
noncomputable def exactNewton (f : ℝ → ℝ) (x : ℝ) : Except PyErr ℝ :=
  open Classical in if f x = 0 then .ok x else .error .valueError

theorem trailValues_tracks : ∀ e ∈ trailMeasurements, Tracks (trailValues e.1) e.2.num := by
  intro e he
  simp only [trailMeasurements, List.mem_cons, List.not_mem_nil, or_false] at he
  have hex : ∀ k x, k ≠ "h4" → trailMeasurements.getD k (.float 0) = exactU x →
      Tracks (trailValues k) (exactU x).num := by
    intro k x hk hx
    have : trailValues k = fun _ => x := by
      funext z
      unfold trailValues
      rw [if_neg hk, hx]
      rfl
    rw [this]
    exact Tracks.lit x
  rcases he with rfl | rfl | rfl | rfl | rfl | rfl | rfl | rfl | rfl | rfl | rfl | rfl | rfl | rfl
  case inr.inr.inr.inr.inr.inr.inr.inl =>
    have hd : HasDerivAt (fun t : ℝ => 2 / 5 + 1 / 100 * t) (1 / 100) (0 : ℝ) := by
      simpa using ((hasDerivAt_id (0 : ℝ)).const_mul (1 / 100 : ℝ)).const_add (2 / 5)
    exact ⟨by simp [trailValues, FloatOrU.num], fun i => by simpa [trailValues, FloatOrU.num] using hd⟩
  all_goals exact hex _ _ (by decide) rfl

theorem tracks_abc [DecidableEq ι] {f1 f2 f3 f4 f5 g1 g2 g3 g4 g : (ι → ℝ) → ℝ}
    {h1 h2 h3 h4 h5 d1 d2 d3 d4 d : UNum ι} (t1 : Tracks f1 h1) (t2 : Tracks f2 h2)
    (t3 : Tracks f3 h3) (t4 : Tracks f4 h4) (t5 : Tracks f5 h5) (s1 : Tracks g1 d1)
    (s2 : Tracks g2 d2) (s3 : Tracks g3 d3) (s4 : Tracks g4 d4) (s : Tracks g d)
    (hc : (abcN h1 h2 h3 h4 h5 d1 d2 d3 d4 d).2.2.nom ≠ 0) :
    Tracks (fun z => (calculateAbcGeometry (f1 z) (f2 z) (f3 z) (f4 z) (f5 z) (g1 z) (g2 z) (g3 z)
      (g4 z) (g z)).1) (abcN h1 h2 h3 h4 h5 d1 d2 d3 d4 d).1 ∧
    Tracks (fun z => (calculateAbcGeometry (f1 z) (f2 z) (f3 z) (f4 z) (f5 z) (g1 z) (g2 z) (g3 z)
      (g4 z) (g z)).2.1) (abcN h1 h2 h3 h4 h5 d1 d2 d3 d4 d).2.1 ∧
    Tracks (fun z => (calculateAbcGeometry (f1 z) (f2 z) (f3 z) (f4 z) (f5 z) (g1 z) (g2 z) (g3 z)
      (g4 z) (g z)).2.2) (abcN h1 h2 h3 h4 h5 d1 d2 d3 d4 d).2.2 := by
  have half := Tracks.lit (ι := ι) 0.5
  have ha := (((t1.add t2).sub t3).add (half.mul s1)).sub (half.mul s2)
  have hb := ((t4.sub (half.mul s3)).sub t5).add (half.mul s4)
  have hs := ((ha.sub hb).pow 2).neg.add ((s.add (half.mul (s2.add s3))).pow 2)
  refine ⟨ha, hb, hs.sqrt ?_⟩
  intro h0
  apply hc
  exact (congrArg Real.sqrt h0).trans Real.sqrt_zero

/-- **C124, refuted in general.** Without a measured wheelbase the standard deviation of the trail is
wrong: here it is too small, since the tilt and the fork offset are computed from the same
measurement, but treated as independent. -/
theorem C124_trail_refuted : ∃ (d : Dict (UNum (Option Unit))) (d' : (Unit → ℝ) → Dict ℝ)
    (u : UNum (Option Unit)) (f : (Unit → ℝ) → ℝ) (t : UNum Unit),
    calculateBenchmarkGeometryU exactNewton trailMeasurements [] = .ok d ∧
    (∀ z, calculateBenchmarkGeometry exactNewton (measurementsAt trailValues trailMeasurements z) [] =
      .ok (d' z)) ∧
    d.find? "c" = some u ∧ (∀ z, (d' z).find? "c" = some (f z)) ∧ Tracks f t ∧
    u.nom = t.nom ∧ u.std < t.std := by
  have hguess : ∀ r a b c : ℝ, exactNewton (fun lam => lamEquality lam r r a b c) (lamGuess a b c) =
      .ok (lamGuess a b c) := by
    intro r a b c
    unfold exactNewton
    rw [if_pos]
    by_cases hab : a + b = 0
    · simp [lamEquality, lamGuess, hab]
    · exact C10_guess_exact_for_equal_wheels r a b c hab
  -- the arguments with uncertainties
  set v : String → UNum Unit := fun k => (trailMeasurements.getD k (.float 0)).num with hv
  set rF : UNum Unit := wheelRadiusN (v "dF") (v "nF") with hrF
  set rR : UNum Unit := wheelRadiusN (v "dR") (v "nR") with hrR
  rcases habc : abcN (v "h1") (v "h2") (v "h3") (v "h4") (v "h5") (v "d1") (v "d2") (v "d3") (v "d4")
    (v "d") with ⟨a, b, c⟩
  have htilt : tiltArguments trailMeasurements = (.u rF, .u rR, .u a, .u b, .u c) := by
    have e1 : a = (abcN (v "h1") (v "h2") (v "h3") (v "h4") (v "h5") (v "d1") (v "d2") (v "d3") (v "d4")
      (v "d")).1 := by rw [habc]
    have e2 : b = (abcN (v "h1") (v "h2") (v "h3") (v "h4") (v "h5") (v "d1") (v "d2") (v "d3") (v "d4")
      (v "d")).2.1 := by rw [habc]
    have e3 : c = (abcN (v "h1") (v "h2") (v "h3") (v "h4") (v "h5") (v "d1") (v "d2") (v "d3") (v "d4")
      (v "d")).2.2 := by rw [habc]
    rw [e1, e2, e3]
    rfl
  have hval : rF.nom = 1 / 3 ∧ rR.nom = 1 / 3 ∧ rF.lin () = 0 := by
    refine ⟨?_, ?_, ?_⟩
    · show 2 * Real.pi / 3 / 2 / Real.pi / 1 = 1 / 3
      field_simp
    · show 2 * Real.pi / 3 / 2 / Real.pi / 1 = 1 / 3
      field_simp
    · have h1 : (v "dF").lin () = 0 := rfl
      have h2 : (v "nF").lin () = 0 := rfl
      simp [hrF, wheelRadiusN, UNum.lin_div, UNum.lin_lit, h1, h2]
  have hv0 : ∀ k ∈ ["h2", "h3", "h5", "d1", "d2", "d3", "d4"], v k = ⟨0, fun _ => 0⟩ := by
    intro k hk
    simp only [List.mem_cons, List.not_mem_nil, or_false] at hk
    rcases hk with rfl | rfl | rfl | rfl | rfl | rfl | rfl <;> rfl
  have hh1 : v "h1" = ⟨2 / 5, fun _ => 0⟩ := rfl
  have hh4 : v "h4" = ⟨2 / 5, fun _ => 1 / 100⟩ := rfl
  have hdd : v "d" = ⟨3 / 5, fun _ => 0⟩ := rfl
  have ha : a.nom = 2 / 5 ∧ a.lin () = 0 := by
    rw [show a = (abcN (v "h1") (v "h2") (v "h3") (v "h4") (v "h5") (v "d1") (v "d2") (v "d3") (v "d4")
      (v "d")).1 by rw [habc]]
    simp [abcN, hv0, hh1, UNum.nom_add, UNum.nom_sub, UNum.nom_mul, UNum.lin_add, UNum.lin_sub, UNum.lin_mul,
      UNum.lin_lit]
  have hb : b.nom = 2 / 5 ∧ b.lin () = 1 / 100 := by
    rw [show b = (abcN (v "h1") (v "h2") (v "h3") (v "h4") (v "h5") (v "d1") (v "d2") (v "d3") (v "d4")
      (v "d")).2.1 by rw [habc]]
    simp [abcN, hv0, hh4, UNum.nom_add, UNum.nom_sub, UNum.nom_mul, UNum.lin_add, UNum.lin_sub, UNum.lin_mul,
      UNum.lin_lit]
  have hc : c.nom = 3 / 5 ∧ c.lin () = 0 := by
    rw [show c = (abcN (v "h1") (v "h2") (v "h3") (v "h4") (v "h5") (v "d1") (v "d2") (v "d3") (v "d4")
      (v "d")).2.2 by rw [habc]]
    simp [abcN, hv0, hh1, hh4, hdd, UNum.nom_add, UNum.nom_sub, UNum.nom_mul, UNum.lin_add, UNum.lin_sub,
      UNum.lin_mul, UNum.lin_lit, UNum.nom_sqrt, UNum.lin_sqrt, UNum.lin_neg, UNum.nom_neg, UNum.nom_pow,
      UNum.lin_pow]
    exact Real.sqrt_sq (by norm_num)
  have hT : ∀ k, Tracks (trailValues k) (v k) := by
    intro k
    by_cases hk : k = "h4"
    · subst hk
      exact trailValues_tracks ("h4", .u ⟨2 / 5, fun _ => 1 / 100⟩) (by simp [trailMeasurements])
    · cases hf : trailMeasurements.find? k with
      | none =>
        have e1 : v k = PyNum.lit 0 := by simp [hv, Dict.getD, hf, FloatOrU.num]
        have e2 : trailValues k = fun _ => 0 := by
          funext z
          simp [trailValues, hk, Dict.getD, hf, nominalF, FloatOrU.num, UNum.nom_lit]
        rw [e1, e2]
        exact Tracks.lit 0
      | some x =>
        have e1 : v k = x.num := by simp [hv, Dict.getD, hf]
        rw [e1]
        exact trailValues_tracks (k, x) (Dict.find?_some_mem hf)
  obtain ⟨Ta, Tb, Tc⟩ := tracks_abc (hT "h1") (hT "h2") (hT "h3") (hT "h4") (hT "h5") (hT "d1") (hT "d2")
    (hT "d3") (hT "d4") (hT "d") (by rw [habc]; simp [hc.1])
  rw [habc] at Ta Tb Tc
  have hab : a.nom + b.nom = 4 / 5 := by rw [ha.1, hb.1]; norm_num
  have hlam0 : lamGuess a.nom b.nom c.nom = Real.arctan (3 / 4) := by
    rw [lamGuess, hab, hc.1]; norm_num
  -- the call with uncertainties
  have hl : lambdaFromAbcU exactNewton (.u rF) (.u rR) (.u a) (.u b) (.u c) =
      .ok (UNum.fresh (Real.arctan (3 / 4)) (3 / 500)) := by
    have hn := C123_nominal exactNewton rF rR a b c
    rw [lambdaFromAbc, hval.1, hval.2.1, hguess, hlam0] at hn
    cases hL : lambdaFromAbcU exactNewton (.u rF) (.u rR) (.u a) (.u b) (.u c) with
    | error e => rw [hL] at hn; cases hn
    | ok l =>
      rw [hL] at hn
      have hnom : l.nom = Real.arctan (3 / 4) := Except.ok.inj hn
      obtain ⟨e, -⟩ := lambda_ok hL
      rw [e, hnom]
      congr 2
      have hs : (PyNum.atan (c / (a + b)) : UNum Unit).std = √((3 / 500) ^ 2) := by
        unfold UNum.std
        rw [Fintype.sum_unique]
        simp only [PUnit.default_eq_unit, UNum.lin_atan, UNum.lin_div, UNum.lin_add, UNum.nom_add, UNum.nom_div,
          hc.1, hc.2, ha.1, ha.2, hb.1, hb.2]
        norm_num
      rw [hs, Real.sqrt_sq (by norm_num)]
  obtain ⟨d, hd⟩ := geometryU_ok exactNewton trailMeasurements [] (by rfl) (by rfl) (by rfl) htilt hl
  obtain ⟨lam, h1, -, -, hcU⟩ := geometryU_abc exactNewton trailMeasurements [] (by rfl) htilt hd
  obtain rfl : lam = UNum.fresh (Real.arctan (3 / 4)) (3 / 500) := by
    rw [hl] at h1; exact (Except.ok.inj h1).symm
  -- the call with the true values
  set V : String → (Unit → ℝ) → ℝ := trailValues with hV
  have hz : ∀ z, ∃ q : Dict ℝ, calculateBenchmarkGeometry exactNewton
      (measurementsAt trailValues trailMeasurements z) [] = .ok q ∧
      q.find? "c" = some (trail (wheelRadius (V "dF" z) (V "nF" z))
        (Real.arctan ((calculateAbcGeometry (V "h1" z) (V "h2" z) (V "h3" z) (V "h4" z) (V "h5" z) (V "d1" z)
          (V "d2" z) (V "d3" z) (V "d4" z) (V "d" z)).2.2 /
          ((calculateAbcGeometry (V "h1" z) (V "h2" z) (V "h3" z) (V "h4" z) (V "h5" z) (V "d1" z)
          (V "d2" z) (V "d3" z) (V "d4" z) (V "d" z)).1 +
          (calculateAbcGeometry (V "h1" z) (V "h2" z) (V "h3" z) (V "h4" z) (V "h5" z) (V "d1" z)
          (V "d2" z) (V "d3" z) (V "d4" z) (V "d" z)).2.1)))
        (calculateAbcGeometry (V "h1" z) (V "h2" z) (V "h3" z) (V "h4" z) (V "h5" z) (V "d1" z)
          (V "d2" z) (V "d3" z) (V "d4" z) (V "d" z)).2.1).1 := by
    intro z
    have hr : wheelRadius (V "dF" z) (V "nF" z) = wheelRadius (V "dR" z) (V "nR" z) := rfl
    have hg : ∀ k, trailMeasurements.has k = true →
        (measurementsAt trailValues trailMeasurements z).getD k 0 = V k z := by
      intro k hk
      obtain ⟨x, hx⟩ := (Dict.has_iff_exists _ _).1 hk
      simp [Dict.getD, find?_measurementsAt, hx, hV]
    have hq : ∀ ks, (measurementsAt trailValues trailMeasurements z).require ks =
        trailMeasurements.require ks := by
      intro ks
      induction ks with
      | nil => rfl
      | cons k ks ih =>
        simp only [Dict.require, find?_measurementsAt, ih]
        cases trailMeasurements.find? k <;> rfl
    have hlat : ∀ p, transferLateral (measurementsAt trailValues trailMeasurements z) p = p := by
      intro p
      unfold transferLateral
      rw [find?_measurementsAt]
      rfl
    have hwz : (measurementsAt trailValues trailMeasurements z).has "w" = false := by
      rw [Dict.has, find?_measurementsAt]; rfl
    unfold calculateBenchmarkGeometry frameGeometry
    have q1 : trailMeasurements.require ["dF", "nF", "dR", "nR"] = .ok () := rfl
    have q2 : trailMeasurements.require ["h1", "h2", "h3", "h4", "h5", "d1", "d2", "d3", "d4", "d"] =
      .ok () := rfl
    simp only [hq, hwz, q1, q2, Bool.false_eq_true, if_false,
      hg "dF" rfl, hg "nF" rfl, hg "dR" rfl, hg "nR" rfl, hg "h1" rfl, hg "h2" rfl, hg "h3" rfl, hg "h4" rfl,
      hg "h5" rfl, hg "d1" rfl, hg "d2" rfl, hg "d3" rfl, hg "d4" rfl, hg "d" rfl, ← hr,
      lambdaFromAbc, hguess, hlat]
    exact ⟨_, rfl, Dict.find?_set_self _ _ _⟩
  choose d' hd' hcd' using hz
  have hTl := (Tc.div (Ta.add Tb) (by rw [UNum.nom_add, hab]; norm_num)).atan
  have hTr : Tracks (fun z => wheelRadius (V "dF" z) (V "nF" z)) rF := by
    refine (((hT "dF").div (Tracks.lit 2) ?_).div (Tracks.lit Real.pi) ?_).div (hT "nF") ?_
    · show (2 : ℝ) ≠ 0
      norm_num
    · exact Real.pi_ne_zero
    · show (1 : ℝ) ≠ 0
      norm_num
  have hsq : √(1 + (3 / 4 : ℝ) ^ 2) = 5 / 4 := by
    rw [show (1 + (3 / 4 : ℝ) ^ 2) = (5 / 4) ^ 2 by norm_num, Real.sqrt_sq (by norm_num)]
  have hs : Real.sin (Real.arctan (3 / 4)) = 3 / 5 := by
    rw [Real.sin_arctan, hsq]; norm_num
  have hco : Real.cos (Real.arctan (3 / 4)) = 4 / 5 := by
    rw [Real.cos_arctan, hsq]; norm_num
  have hnl : (PyNum.atan (c / (a + b)) : UNum Unit).nom = Real.arctan (3 / 4) := by
    rw [UNum.nom_atan, UNum.nom_div, UNum.nom_add, hab, hc.1]; norm_num
  have hll : (PyNum.atan (c / (a + b)) : UNum Unit).lin () = -(3 / 500) := by
    simp only [UNum.lin_atan, UNum.lin_div, UNum.lin_add, UNum.nom_add, UNum.nom_div,
      hc.1, hc.2, ha.1, ha.2, hb.1, hb.2]
    norm_num
  refine ⟨d, d', _, _, (trailN rF (PyNum.atan (c / (a + b))) b).1, hd, hd', hcU, hcd', ?_, ?_, ?_⟩
  · refine (((hTr.mul hTl.sin).sub Tb).div hTl.cos ?_)
    rw [UNum.nom_cos, hnl, hco]; norm_num
  · simp only [trailN, UNum.nom_div, UNum.nom_sub, UNum.nom_mul, UNum.nom_sin, UNum.nom_cos, hnl]
    rfl
  · have e1 : (trailN rF (PyNum.atan (c / (a + b))) b).1.lin () = -(107 / 8000) := by
      simp only [trailN, UNum.lin_div, UNum.lin_sub, UNum.lin_mul, UNum.lin_sin, UNum.lin_cos,
        UNum.nom_sub, UNum.nom_mul, UNum.nom_sin, UNum.nom_cos, hnl, hll, hs, hco, hval.1, hval.2.2, hb.1, hb.2]
      norm_num
    have e2 : (trailN (FloatOrU.u rF).out (UNum.fresh (Real.arctan (3 / 4)) (3 / 500))
        (FloatOrU.u b).out).1.lin none = 7 / 8000 := by
      have f1 : (UNum.fresh (Real.arctan (3 / 4)) (3 / 500) : UNum (Option Unit)).nom = Real.arctan (3 / 4) := rfl
      have f2 : (UNum.fresh (Real.arctan (3 / 4)) (3 / 500) : UNum (Option Unit)).lin none = 3 / 500 := rfl
      simp only [trailN, UNum.lin_div, UNum.lin_sub, UNum.lin_mul, UNum.lin_sin, UNum.lin_cos,
        UNum.nom_sub, UNum.nom_mul, UNum.nom_sin, UNum.nom_cos, f1, f2, hs, hco, FloatOrU.out, FloatOrU.num,
        UNum.nom_lift, UNum.lin_lift_none, hval.1, hb.1]
      norm_num
    have e3 : (trailN (FloatOrU.u rF).out (UNum.fresh (Real.arctan (3 / 4)) (3 / 500))
        (FloatOrU.u b).out).1.lin (some ()) = -(1 / 80) := by
      have f1 : (UNum.fresh (Real.arctan (3 / 4)) (3 / 500) : UNum (Option Unit)).nom = Real.arctan (3 / 4) := rfl
      have f2 : (UNum.fresh (Real.arctan (3 / 4)) (3 / 500) : UNum (Option Unit)).lin (some ()) = 0 := rfl
      simp only [trailN, UNum.lin_div, UNum.lin_sub, UNum.lin_mul, UNum.lin_sin, UNum.lin_cos,
        UNum.nom_sub, UNum.nom_mul, UNum.nom_sin, UNum.nom_cos, f1, f2, hs, hco, FloatOrU.out, FloatOrU.num,
        UNum.nom_lift, UNum.lin_lift_some, hval.1, hval.2.2, hb.1, hb.2]
      norm_num
    unfold UNum.std
    rw [Fintype.sum_option, Fintype.sum_unique, Fintype.sum_unique]
    simp only [PUnit.default_eq_unit, e1, e2, e3]
    exact Real.sqrt_lt_sqrt (by positivity) (by norm_num)

/-! ## The hypotheses of C124 can be met -/

/-- non-vacuity of C124_measured_wheelbase_partial: an uncertain head angle -/
example : ∃ d, calculateBenchmarkGeometryU (ι := Unit) exactNewton
    [("dF", .float 2), ("nF", .float 1), ("dR", .float 2), ("nR", .float 1),
     ("gamma", .u ⟨90, fun _ => 1⟩), ("w", .float 1), ("f", .float (1 / 20))] [] = .ok d := by
  obtain ⟨d, _, h, _⟩ := C124_measured_wheelbase_partial (ι := Unit) exactNewton
    [("dF", .float 2), ("nF", .float 1), ("dR", .float 2), ("nR", .float 1),
     ("gamma", .u ⟨90, fun _ => 1⟩), ("w", .float 1), ("f", .float (1 / 20))]
    (fun k z => if k = "dF" ∨ k = "dR" then 2 else if k = "gamma" then 90 + z () else
      if k = "f" then 1 / 20 else 1)
    (by
      intro k hk
      simp only [List.mem_cons, List.not_mem_nil, or_false] at hk
      rcases hk with rfl | rfl | rfl | rfl | rfl | rfl | rfl
      case inr.inr.inr.inr.inl =>
        refine ⟨_, by simp [Dict.find?]; rfl, by simp [FloatOrU.num], fun i => ?_⟩
        simpa [FloatOrU.num] using (hasDerivAt_id (0 : ℝ)).const_add 90
      all_goals exact ⟨_, by simp [Dict.find?]; rfl, by simpa [FloatOrU.num] using Tracks.lit _⟩)
    (by simp) (by simp) (by simp) [] []
  exact ⟨d, h⟩

/-- The measurements of `exampleTilt`: only the distance rolled by the front wheel is uncertain. -/
noncomputable def radiusMeasurements : Dict (FloatOrU Unit) :=
  [("dF", .u ⟨2 * Real.pi / 3, fun _ => 2 * Real.pi / 100⟩), ("nF", exactU 1),
   ("dR", exactU (2 * Real.pi / 3)), ("nR", exactU 1),
   ("h1", exactU (2 / 5)), ("h2", exactU 0), ("h3", exactU 0), ("h4", exactU (2 / 5)),
   ("h5", exactU 0), ("d1", exactU 0), ("d2", exactU 0), ("d3", exactU 0), ("d4", exactU 0),
   ("d", exactU (3 / 5))]

theorem radius_tilt : tiltArguments radiusMeasurements =
    (.u ⟨1 / 3, fun _ => 1 / 100⟩, .u ⟨1 / 3, fun _ => 0⟩, .u ⟨2 / 5, fun _ => 0⟩,
      .u ⟨2 / 5, fun _ => 0⟩, .u ⟨3 / 5, fun _ => 0⟩) := by
  have hpi := Real.pi_ne_zero
  have h1 : (tiltArguments radiusMeasurements).1 = .u ⟨1 / 3, fun _ => 1 / 100⟩ := by
    refine congrArg FloatOrU.u (UNum.ext' ?_ fun i => ?_)
    · show 2 * Real.pi / 3 / 2 / Real.pi / 1 = 1 / 3
      field_simp
    · show (((2 * Real.pi / 100 * 2 - 2 * Real.pi / 3 * 0) / 2 ^ 2 * Real.pi - 2 * Real.pi / 3 / 2 * 0) /
        Real.pi ^ 2 * 1 - 2 * Real.pi / 3 / 2 / Real.pi * 0) / 1 ^ 2 = 1 / 100
      field_simp
      ring
  have h2 : (tiltArguments radiusMeasurements).2.1 = .u ⟨1 / 3, fun _ => 0⟩ := by
    refine congrArg FloatOrU.u (UNum.ext' ?_ fun i => ?_)
    · show 2 * Real.pi / 3 / 2 / Real.pi / 1 = 1 / 3
      field_simp
    · show (((0 * 2 - 2 * Real.pi / 3 * 0) / 2 ^ 2 * Real.pi - 2 * Real.pi / 3 / 2 * 0) /
        Real.pi ^ 2 * 1 - 2 * Real.pi / 3 / 2 / Real.pi * 0) / 1 ^ 2 = 0
      ring
  have e := fun (x y : UNum Unit) (hn : x.nom = y.nom) (hl : x.lin () = y.lin ()) =>
    congrArg FloatOrU.u (UNum.ext' hn fun _ => hl)
  have h3 : (tiltArguments radiusMeasurements).2.2.1 = .u ⟨2 / 5, fun _ => 0⟩ := by
    refine e _ _ ?_ ?_
    · show (2 / 5 + 0 - 0 + 0.5 * 0 - 0.5 * 0 : ℝ) = 2 / 5
      norm_num
    · show (0 + 0 - 0 + (0 * 0 + 0.5 * 0) - (0 * 0 + 0.5 * 0) : ℝ) = 0
      norm_num
  have h4 : (tiltArguments radiusMeasurements).2.2.2.1 = .u ⟨2 / 5, fun _ => 0⟩ := by
    refine e _ _ ?_ ?_
    · show (2 / 5 - 0.5 * 0 - 0 + 0.5 * 0 : ℝ) = 2 / 5
      norm_num
    · show (0 - (0 * 0 + 0.5 * 0) - 0 + (0 * 0 + 0.5 * 0) : ℝ) = 0
      norm_num
  have h5 : (tiltArguments radiusMeasurements).2.2.2.2 = .u ⟨3 / 5, fun _ => 0⟩ := by
    have hsq : √((3 / 5 : ℝ) ^ 2) = 3 / 5 := Real.sqrt_sq (by norm_num)
    refine e _ _ ?_ ?_
    · show √(-((2 / 5 + 0 - 0 + 0.5 * 0 - 0.5 * 0) - (2 / 5 - 0.5 * 0 - 0 + 0.5 * 0)) ^ 2 +
        (3 / 5 + 0.5 * (0 + 0)) ^ 2 : ℝ) = 3 / 5
      rw [show (-((2 / 5 + 0 - 0 + 0.5 * 0 - 0.5 * 0) - (2 / 5 - 0.5 * 0 - 0 + 0.5 * 0)) ^ 2 +
        (3 / 5 + 0.5 * (0 + 0)) ^ 2 : ℝ) = (3 / 5) ^ 2 by norm_num, hsq]
    · show (1 / (2 * √(-((2 / 5 + 0 - 0 + 0.5 * 0 - 0.5 * 0) - (2 / 5 - 0.5 * 0 - 0 + 0.5 * 0)) ^ 2 +
        (3 / 5 + 0.5 * (0 + 0)) ^ 2 : ℝ)) *
        (-((2 : ℕ) * ((2 / 5 + 0 - 0 + 0.5 * 0 - 0.5 * 0) - (2 / 5 - 0.5 * 0 - 0 + 0.5 * 0)) ^ (2 - 1) *
          ((0 + 0 - 0 + (0 * 0 + 0.5 * 0) - (0 * 0 + 0.5 * 0)) -
            (0 - (0 * 0 + 0.5 * 0) - 0 + (0 * 0 + 0.5 * 0)))) +
          (2 : ℕ) * (3 / 5 + 0.5 * (0 + 0)) ^ (2 - 1) * (0 + (0 * (0 + 0) + 0.5 * (0 + 0)))) : ℝ) = 0
      norm_num
  exact Prod.ext h1 (Prod.ext h2 (Prod.ext h3 (Prod.ext h4 h5)))

/-- non-vacuity of C124_wheelbase_equal_radii_partial -/
example : ∃ d u t, calculateBenchmarkGeometryU exactNewton radiusMeasurements [] = .ok d ∧
    d.find? "w" = some u ∧
    Tracks (fun z => (2 / 5 + 2 / 5 : ℝ) * Real.cos (Real.arctan (3 / 4) + Real.arcsin (1 / 100 * z ())) +
      3 / 5 * Real.sin (Real.arctan (3 / 4) + Real.arcsin (1 / 100 * z ()))) t ∧
    u.nom = t.nom ∧ u.std = t.std := by
  have hg : lamGuess (2 / 5) (2 / 5) (3 / 5) = Real.arctan (3 / 4) := by
    unfold lamGuess; norm_num
  have hl : lambdaFromAbcU exactNewton (.u ⟨1 / 3, fun _ => 1 / 100⟩ : FloatOrU Unit)
      (.u ⟨1 / 3, fun _ => 0⟩) (.u ⟨2 / 5, fun _ => 0⟩) (.u ⟨2 / 5, fun _ => 0⟩)
      (.u ⟨3 / 5, fun _ => 0⟩) = .ok (UNum.fresh (Real.arctan (3 / 4)) (UNum.std (PyNum.atan
        ((⟨3 / 5, fun _ => 0⟩ : UNum Unit) / (⟨2 / 5, fun _ => 0⟩ + ⟨2 / 5, fun _ => 0⟩))))) := by
    have h0 := C10_guess_exact_for_equal_wheels (1 / 3) (2 / 5) (2 / 5) (3 / 5) (by norm_num)
    rw [hg] at h0
    have hn : (PyNum.atan ((⟨3 / 5, fun _ => 0⟩ : UNum Unit) /
        (⟨2 / 5, fun _ => 0⟩ + ⟨2 / 5, fun _ => 0⟩))).nom = Real.arctan (3 / 4) := by
      show Real.arctan (3 / 5 / (2 / 5 + 2 / 5)) = _
      norm_num
    simp only [lambdaFromAbcU, FloatOrU.nominal, FloatOrU.num, Except.bind, hn, exactNewton, h0, if_true]
    rfl
  obtain ⟨d, hd⟩ := geometryU_ok exactNewton radiusMeasurements [] rfl rfl rfl radius_tilt hl
  obtain ⟨lam, h1, h2, -⟩ := geometryU_abc exactNewton radiusMeasurements [] rfl radius_tilt hd
  rw [hl] at h1
  obtain ⟨u, t, h⟩ := C124_wheelbase_equal_radii_partial exactNewton radiusMeasurements [] rfl radius_tilt
    exampleTilt (by norm_num) rfl hd h2 (by rw [← Except.ok.inj h1]; rfl)
  exact ⟨d, u, t, hd, h⟩

end BP
